import Verif.Spec.Iter
namespace Verif

theorem Yields.trans {next : σ → PyM α × σ} {s₁ s₂ s₃ : σ} {l m : List α}
    (h : Yields next s₁ l s₂) (h' : Yields next s₂ m s₃) : Yields next s₁ (l ++ m) s₃ := by
  induction h with
  | nil => simpa
  | cons s t u a l hn _ ih => exact .cons _ _ _ _ _ hn (ih h')

theorem Yields.snoc {next : σ → PyM α × σ} {s₁ s₂ s₃ : σ} {l : List α} {a : α}
    (h : Yields next s₁ l s₂) (h' : next s₂ = (.ok a, s₃)) : Yields next s₁ (l ++ [a]) s₃ :=
  h.trans (.cons _ _ _ _ _ h' (.nil _))

theorem ListOf.nil_iff {next : σ → PyM α × σ} {s : σ} :
    ListOf next s [] ↔ (next s).1 = .error .stopIteration := by
  constructor
  · rintro ⟨s', h, h'⟩
    cases h; exact h'
  · intro h; exact ⟨s, .nil _, h⟩

theorem ListOf.cons_iff {next : σ → PyM α × σ} {s : σ} {a : α} {l : List α} :
    ListOf next s (a :: l) ↔ ∃ s', next s = (.ok a, s') ∧ ListOf next s' l := by
  constructor
  · rintro ⟨s', h, h'⟩
    cases h with
    | cons _ s₁ _ _ _ hn ht => exact ⟨s₁, hn, s', ht, h'⟩
  · rintro ⟨s₁, hn, s', ht, h'⟩
    exact ⟨s', .cons _ _ _ _ _ hn ht, h'⟩

theorem ListOf.unique {next : σ → PyM α × σ} {s : σ} {l m : List α}
    (h : ListOf next s l) (h' : ListOf next s m) : l = m := by
  induction l generalizing s m with
  | nil =>
    cases m with
    | nil => rfl
    | cons b m =>
      obtain ⟨s', hn, _⟩ := ListOf.cons_iff.1 h'
      rw [ListOf.nil_iff, hn] at h; cases h
  | cons a l ih =>
    obtain ⟨s₁, hn, h1⟩ := ListOf.cons_iff.1 h
    cases m with
    | nil => rw [ListOf.nil_iff, hn] at h'; cases h'
    | cons b m =>
      obtain ⟨s₂, hn', h2⟩ := ListOf.cons_iff.1 h'
      rw [hn] at hn'
      cases hn'
      rw [ih h1 h2]

theorem ListOf.of_yields {next : σ → PyM α × σ} {s s' : σ} {l m : List α}
    (h : Yields next s l s') (h' : ListOf next s' m) : ListOf next s (l ++ m) := by
  obtain ⟨s'', hy, hs⟩ := h'
  exact ⟨s'', h.trans hy, hs⟩

theorem Yields.append_inv {next : σ → PyM α × σ} {s s₂ : σ} {l m : List α}
    (h : Yields next s (l ++ m) s₂) : ∃ s₁, Yields next s l s₁ ∧ Yields next s₁ m s₂ := by
  induction l generalizing s with
  | nil => exact ⟨s, .nil _, by simpa using h⟩
  | cons a l ih =>
    cases h with
    | cons _ s₁ _ _ _ hn ht =>
      obtain ⟨t, h1, h2⟩ := ih ht
      exact ⟨t, .cons _ _ _ _ _ hn h1, h2⟩

theorem Yields.det {next : σ → PyM α × σ} {s s₁ s₂ : σ} {l m : List α}
    (h : Yields next s l s₁) (h' : Yields next s m s₂) (hl : l.length = m.length) :
    l = m ∧ s₁ = s₂ := by
  induction h generalizing m with
  | nil s =>
    cases m with
    | nil => cases h'; exact ⟨rfl, rfl⟩
    | cons => simp at hl
  | cons s t u a l hn _ ih =>
    cases h' with
    | nil => simp at hl
    | cons _ t' _ b m hn' ht' =>
      rw [hn] at hn'
      cases hn'
      obtain ⟨rfl, rfl⟩ := ih ht' (by simpa using hl)
      exact ⟨rfl, rfl⟩

end Verif
