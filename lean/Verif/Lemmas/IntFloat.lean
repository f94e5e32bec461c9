import Verif.Lemmas.Fields
/-
`int(float(text))` of a whole number.
-/
namespace Verif
open Spec

theorem mag_of_nat (k : Nat) (hk : k < 2 ^ 53) : ∃ b, b < 2047 * 2 ^ 52 ∧ F64.mag b = (k : ℚ) := by
  by_cases h0 : k = 0
  · exact ⟨0, by omega, by simp [F64.mag, h0]⟩
  · have h1 : 2 ^ Nat.log2 k ≤ k := Nat.log2_self_le h0
    have h2 : k < 2 ^ (Nat.log2 k + 1) := Nat.lt_log2_self
    generalize Nat.log2 k = L at h1 h2
    have hL : L ≤ 52 := by
      by_contra h
      have : 2 ^ 53 ≤ 2 ^ L := Nat.pow_le_pow_right (by omega) (by omega)
      omega
    obtain ⟨j, hj⟩ : ∃ j, j + L = 52 := ⟨52 - L, by omega⟩
    have e1 : 2 ^ 52 ≤ k * 2 ^ j := by
      calc 2 ^ 52 = 2 ^ L * 2 ^ j := by rw [← pow_add, ← hj, add_comm]
        _ ≤ k * 2 ^ j := Nat.mul_le_mul_right _ h1
    have e2 : k * 2 ^ j < 2 ^ 53 := by
      calc k * 2 ^ j < 2 ^ (L + 1) * 2 ^ j := Nat.mul_lt_mul_of_pos_right h2 (by positivity)
        _ = 2 ^ 53 := by rw [← pow_add]; congr 1; omega
    refine ⟨(L + 1023) * 2 ^ 52 + (k * 2 ^ j - 2 ^ 52), by omega, ?_⟩
    have d1 : ((L + 1023) * 2 ^ 52 + (k * 2 ^ j - 2 ^ 52)) / 2 ^ 52 = L + 1023 := by
      omega
    have d2 : ((L + 1023) * 2 ^ 52 + (k * 2 ^ j - 2 ^ 52)) % 2 ^ 52 = k * 2 ^ j - 2 ^ 52 := by
      omega
    rw [F64.mag, d1, d2, if_neg (by omega)]
    have e3 : 2 ^ 52 + (k * 2 ^ j - 2 ^ 52) = k * 2 ^ j := by omega
    rw [e3]
    have e4 : ((k * 2 ^ j : ℕ) : ℚ) * 2 ^ (L + 1023 - 1) = k * 2 ^ 1074 := by
      rw [Nat.cast_mul, Nat.cast_pow, Nat.cast_ofNat, mul_assoc, ← pow_add]
      have : j + (L + 1023 - 1) = 1074 := by omega
      rw [this]
    rw [e4]
    exact mul_div_cancel_right₀ _ (by positivity)

theorem toRat_of_bits (b : Nat) (hb : b < 2047 * 2 ^ 52) (neg : Bool) :
    F64.Finite ⟨Fin.ofNat _ (b + if neg then 2 ^ 63 else 0)⟩ ∧
    F64.toRat ⟨Fin.ofNat _ (b + if neg then 2 ^ 63 else 0)⟩ = (if neg then -1 else 1) * F64.mag b := by
  cases neg with
  | false =>
    have e : (Fin.ofNat (2 ^ 64) (b + if false = true then 2 ^ 63 else 0)).val = b := by
      simp [Fin.ofNat]; omega
    constructor
    · rw [F64.Finite, e]; omega
    · rw [F64.toRat, e, if_pos (by omega)]; simp
  | true =>
    have e : (Fin.ofNat (2 ^ 64) (b + if true = true then 2 ^ 63 else 0)).val = b + 2 ^ 63 := by
      simp [Fin.ofNat]; omega
    constructor
    · rw [F64.Finite, e]; omega
    · rw [F64.toRat, e, if_neg (by omega), Nat.add_sub_cancel]; simp

theorem nearest_int (x : F64) (k : Nat) (hk : k < 2 ^ 53) (neg : Bool)
    (h : F64.Nearest ((if neg then -1 else 1) * (k : ℚ)) x) : x.toRat = (if neg then -1 else 1) * (k : ℚ) := by
  obtain ⟨b, hb, hm⟩ := mag_of_nat k hk
  obtain ⟨h1, h2⟩ := toRat_of_bits b hb neg
  have := h.closest _ h1
  rw [h2, hm, sub_self, abs_zero] at this
  have := abs_eq_zero.1 (le_antisymm this (abs_nonneg _))
  linarith

theorem truncInt_of (x : F64) (hf : x.Finite) (neg : Bool) (k : Nat) (h : x.toRat = (if neg then -1 else 1) * (k : ℚ)) :
    x.truncInt = .ok (signed neg k) := by
  have hlt := x.bits.isLt
  have hmag : F64.mag x.magBits = k ∧ (x.neg = neg ∨ k = 0) := by
    have hnn : 0 ≤ F64.mag x.magBits := by
      rw [F64.mag]; split <;> positivity
    have e : x.toRat = (if x.neg then -1 else 1) * F64.mag x.magBits := by
      rw [F64.toRat, F64.neg, F64.magBits]
      by_cases hc : x.bits.val < 2 ^ 63
      · rw [if_pos hc, Nat.mod_eq_of_lt hc]
        have : decide (2 ^ 63 ≤ x.bits.val) = false := by simp; omega
        rw [this]; simp
      · have hmod : x.bits.val % 2 ^ 63 = x.bits.val - 2 ^ 63 := by omega
        rw [if_neg hc, hmod]
        have : decide (2 ^ 63 ≤ x.bits.val) = true := by simp; omega
        rw [this]; simp
    rw [e] at h
    have hkn : (0 : ℚ) ≤ k := Nat.cast_nonneg k
    cases hx : x.neg <;> cases neg <;> rw [hx] at h <;> simp at h ⊢
    · exact h
    · have : (k : ℚ) = 0 := by linarith
      have hk0 : k = 0 := by exact_mod_cast this
      exact ⟨by linarith, hk0⟩
    · have : (k : ℚ) = 0 := by linarith
      have hk0 : k = 0 := by exact_mod_cast this
      exact ⟨by linarith, hk0⟩
    · exact h
  obtain ⟨hm, hs⟩ := hmag
  have hb : x.magBits < 2047 * 2 ^ 52 := hf
  generalize hbx : x.magBits = b at hm hb
  have key : (if 1075 ≤ max (b / 2 ^ 52) 1 then (if b / 2 ^ 52 = 0 then b % 2 ^ 52 else b % 2 ^ 52 + 2 ^ 52) *
      2 ^ (max (b / 2 ^ 52) 1 - 1075) else (if b / 2 ^ 52 = 0 then b % 2 ^ 52 else b % 2 ^ 52 + 2 ^ 52) /
      2 ^ (1075 - max (b / 2 ^ 52) 1)) = k := by
    have hnat : (if b / 2 ^ 52 = 0 then b % 2 ^ 52 else b % 2 ^ 52 + 2 ^ 52) * 2 ^ (max (b / 2 ^ 52) 1 - 1) =
        k * 2 ^ 1074 := by
      rw [F64.mag] at hm
      split at hm
      · rename_i h0
        rw [if_pos h0, h0]
        rw [div_eq_iff (by positivity)] at hm
        have : b = k * 2 ^ 1074 := by exact_mod_cast hm
        simp; omega
      · rename_i h0
        rw [if_neg h0]
        rw [div_eq_iff (by positivity)] at hm
        have h3 : (2 ^ 52 + b % 2 ^ 52) * 2 ^ (b / 2 ^ 52 - 1) = k * 2 ^ 1074 := by exact_mod_cast hm
        rw [Nat.max_eq_left (by omega), ← h3, Nat.add_comm]
    generalize (if b / 2 ^ 52 = 0 then b % 2 ^ 52 else b % 2 ^ 52 + 2 ^ 52) = m at hnat ⊢
    have hE : 1 ≤ max (b / 2 ^ 52) 1 := Nat.le_max_right _ _
    generalize max (b / 2 ^ 52) 1 = E at hnat hE ⊢
    split
    · rename_i hE'
      have : m * 2 ^ (E - 1) = m * 2 ^ (E - 1075) * 2 ^ 1074 := by
        rw [mul_assoc, ← pow_add]; congr 2; omega
      rw [this] at hnat
      exact Nat.eq_of_mul_eq_mul_right (by positivity) hnat
    · rename_i hE'
      have : k * 2 ^ 1074 = k * 2 ^ (1075 - E) * 2 ^ (E - 1) := by
        rw [mul_assoc, ← pow_add]; congr 2; omega
      rw [this] at hnat
      rw [Nat.eq_of_mul_eq_mul_right (by positivity) hnat]
      exact Nat.mul_div_cancel _ (by positivity)
  rw [F64.truncInt]
  simp only [hbx]
  rw [if_neg (by omega), key]
  rcases hs with rfl | rfl
  · rfl
  · cases x.neg <;> cases neg <;> rfl

/-- `int(float(text))` of a printed whole number below 2^53. -/
theorem intOfFloat_text (n : Numeral) (hn : n.Valid) (hi : n.IsInt) (hk : Numeral.nat n.ip < 2 ^ 53) :
    intOfFloat n.text = .ok (intOf n) := by
  have hval : n.value = (if decide (n.sign = some true) then -1 else 1) * (Numeral.nat n.ip : ℚ) := by
    rw [Numeral.value, hi.1, hi.2, Numeral.sgn]
    by_cases h : n.sign = some true <;> simp [h, Numeral.nat, Numeral.expVal]
  have hr : n.InRange := by
    rw [Numeral.InRange, hval, abs_mul]
    have h1 : |(if decide (n.sign = some true) = true then (-1 : ℚ) else 1)| = 1 := by split <;> simp
    rw [h1, one_mul, abs_of_nonneg (Nat.cast_nonneg _)]
    calc (Numeral.nat n.ip : ℚ) < 2 ^ 53 := by exact_mod_cast hk
      _ ≤ (2 ^ 54 - 1) * 1 := by norm_num
      _ ≤ (2 ^ 54 - 1) * 2 ^ 970 := by
        apply mul_le_mul_of_nonneg_left _ (by norm_num)
        exact one_le_pow₀ (by norm_num)
  obtain ⟨x, h1, h2⟩ := pyFloat_text n hn hr
  rw [intOfFloat, h1]
  show x.truncInt = _
  rw [hval] at h2
  rw [truncInt_of x h2.finite _ _ (nearest_int x _ hk _ h2), intOf, signed, Numeral.sgn]
  by_cases h : n.sign = some true <;> simp [h]

end Verif
