import Verif.Py.Basic
/-
Decimal texts.
-/
namespace Verif

theorem natDigitsAux_spec : ∀ (fuel n : Nat) (acc : Str), n < fuel →
    ∃ d, natDigitsAux fuel n acc = d ++ acc ∧ d ≠ [] ∧ (∀ c ∈ d, 48 ≤ c ∧ c ≤ 57) ∧ digitsVal d = n := by
  intro fuel
  induction fuel with
  | zero => intro n acc h; omega
  | succ fuel ih =>
    intro n acc h
    rw [natDigitsAux]
    split
    · rename_i hn
      refine ⟨[48 + n], by simp, by simp, ?_, by simp [digitsVal]⟩
      intro c hc; simp at hc; omega
    · rename_i hn
      obtain ⟨d, h1, h2, h3, h4⟩ := ih (n / 10) ((48 + n % 10) :: acc) (by omega)
      refine ⟨d ++ [48 + n % 10], by rw [h1]; simp, by simp, ?_, ?_⟩
      · intro c hc
        rcases List.mem_append.1 hc with hc | hc
        · exact h3 c hc
        · simp at hc; omega
      · have : digitsVal (d ++ [48 + n % 10]) = digitsVal d * 10 + (48 + n % 10 - 48) := by
          simp [digitsVal]
        rw [this, h4]; omega

theorem natStr_spec (n : Nat) : natStr n ≠ [] ∧ (∀ c ∈ natStr n, 48 ≤ c ∧ c ≤ 57) ∧ digitsVal (natStr n) = n := by
  obtain ⟨d, h1, h2, h3, h4⟩ := natDigitsAux_spec (n + 1) n [] (by omega)
  rw [List.append_nil] at h1
  rw [natStr, h1]; exact ⟨h2, h3, h4⟩

theorem natStr_inj {m n : Nat} (h : natStr m = natStr n) : m = n := by
  rw [← (natStr_spec m).2.2, ← (natStr_spec n).2.2, h]

theorem intStr_inj {i j : Int} (h : intStr i = intStr j) : i = j := by
  have hm : ∀ n m : Nat, natStr n ≠ c!"-" :: natStr m := by
    intro n m e
    have := (natStr_spec n).2.1 (c!"-") (by rw [e]; simp)
    exact absurd this (by decide)
  cases i with
  | ofNat m =>
    cases j with
    | ofNat n => exact congrArg Int.ofNat (natStr_inj h)
    | negSucc n => exact absurd h (hm _ _)
  | negSucc m =>
    cases j with
    | ofNat n => exact absurd h.symm (hm _ _)
    | negSucc n =>
      have := natStr_inj (List.cons.inj h).2
      rw [Nat.succ.inj this]

/-- Integers are nonempty texts of digits and perhaps a sign. -/
theorem intStr_chars (i : Int) : intStr i ≠ [] ∧ ∀ c ∈ intStr i, c = 45 ∨ (48 ≤ c ∧ c ≤ 57) := by
  cases i with
  | ofNat n => exact ⟨(natStr_spec n).1, fun c hc => .inr ((natStr_spec n).2.1 c hc)⟩
  | negSucc n =>
    refine ⟨by simp [intStr], fun c hc => ?_⟩
    rcases List.mem_cons.1 hc with rfl | hc
    · exact .inl rfl
    · exact .inr ((natStr_spec _).2.1 c hc)

end Verif
