import Verif.Py.FloatOps
import Verif.Lemmas.Fields
/-
Arithmetic on doubles is correctly rounded.
-/
namespace Verif.F64
open Verif

theorem round_nearest (neg : Bool) (n d : Nat) (hd : 0 < d) (h : (round neg n d).Finite) :
    F64.Nearest ((if neg then -1 else 1) * ((n : ℚ) / d)) (round neg n d) := by
  by_cases hn : n = 0
  · subst hn
    have : ((if neg then -1 else 1) * (((0 : ℕ) : ℚ) / d)) = 0 := by simp
    rw [this]
    apply nearest_of_mag_zero
    rw [round, if_pos rfl]
    cases neg <;> decide
  · have hb : roundBits n d < 2047 * 2 ^ 52 := by
      by_contra hb
      rw [round] at h
      simp only [if_neg hn, if_neg hb] at h
      revert h
      cases neg <;> decide
    apply ratioToF64_nearest neg n d hd
    rw [ratioToF64, round]
    simp only [if_neg hn, if_pos hb]

theorem magUnits_eq (x : F64) : x.magUnits = units x.magBits := by
  rw [magUnits, units]
  by_cases h : x.magBits / 2 ^ 52 = 0
  · simp only [h, if_true]
    omega
  · simp only [h, if_false]
    rw [Nat.add_comm]

/-- A finite double is its signed magnitude. -/
theorem toRat_eq (x : F64) : x.toRat = (x.signedUnits : ℚ) / 2 ^ 1074 := by
  have hx := x.bits.isLt
  rw [toRat, signedUnits, signed, magUnits_eq, neg]
  by_cases h : x.bits.val < 2 ^ 63
  · rw [if_pos h, mag_eq, magBits, Nat.mod_eq_of_lt h, if_neg (by simpa using h)]
    rw [Int.cast_natCast]
  · rw [if_neg h, mag_eq, magBits, if_pos (by simpa using h)]
    have : x.bits.val % 2 ^ 63 = x.bits.val - 2 ^ 63 := by omega
    rw [this]
    rw [Int.cast_neg, Int.cast_natCast, neg_div]

theorem signed_eq (b : Bool) (n : Nat) : (signed b n : ℚ) = (if b then -1 else 1) * n := by
  cases b <;> simp [signed]

theorem finite_tests {x : F64} (h : x.Finite) : x.isNan = false ∧ x.isInf = false := by
  rw [F64.Finite] at h
  rw [isNan, isInf, magBits]
  constructor
  · simp; omega
  · simp; omega

/-- `+` gives the nearest double to the sum. -/
theorem add_nearest {x y : F64} (hx : x.Finite) (hy : y.Finite) (h : (add x y).Finite) :
    F64.Nearest (x.toRat + y.toRat) (add x y) := by
  have hs : x.toRat + y.toRat = ((x.signedUnits + y.signedUnits : ℤ) : ℚ) / 2 ^ 1074 := by
    rw [toRat_eq, toRat_eq, ← add_div]; push_cast; rfl
  rw [hs]
  rw [add, (finite_tests hx).1, (finite_tests hx).2, (finite_tests hy).1, (finite_tests hy).2] at h ⊢
  simp only [Bool.or_self, Bool.false_eq_true, if_false] at h ⊢
  generalize x.signedUnits + y.signedUnits = s at h ⊢
  by_cases h0 : s = 0
  · simp only [if_pos h0] at h ⊢
    have := round_nearest _ 0 1 (by omega) h
    subst h0
    simpa using this
  · simp only [if_neg h0] at h ⊢
    have hT : 0 < 2 ^ 1074 := pow_pos (by norm_num) _
    have := round_nearest _ _ _ hT h
    have e : (s : ℚ) / 2 ^ 1074 = (if decide (s < 0) = true then -1 else 1) * ((s.natAbs : ℚ) / ((2 ^ 1074 : ℕ) : ℚ)) := by
      have hc : ((2 ^ 1074 : ℕ) : ℚ) = 2 ^ 1074 := Nat.cast_pow 2 1074
      rw [hc]
      generalize (2 : ℚ) ^ 1074 = T
      rcases lt_or_ge s 0 with hs | hs
      · rw [if_pos (by simpa using hs)]
        have : ((s.natAbs : ℕ) : ℚ) = -(s : ℚ) := by
          rw [← Int.cast_natCast (R := ℚ), Int.natCast_natAbs, abs_of_neg hs]; push_cast; rfl
        rw [this]; ring
      · rw [if_neg (by simpa using hs)]
        have : ((s.natAbs : ℕ) : ℚ) = (s : ℚ) := by
          rw [← Int.cast_natCast (R := ℚ), Int.natCast_natAbs, abs_of_nonneg hs]
        rw [this]; ring
    rw [e]; exact this

theorem negate_spec (x : F64) : x.negate.toRat = - x.toRat ∧ (x.negate.Finite ↔ x.Finite) := by
  have hx := x.bits.isLt
  have hm : x.magBits < 2 ^ 63 := Nat.mod_lt _ (by norm_num)
  rw [negate, neg]
  by_cases h : x.bits.val < 2 ^ 63
  · rw [if_neg (by simpa using h)]
    have e : (Fin.ofNat (2 ^ 64) (x.magBits + 2 ^ 63)).val = x.bits.val + 2 ^ 63 := by
      rw [Fin.val_ofNat, magBits, Nat.mod_eq_of_lt h, Nat.mod_eq_of_lt (by omega)]
    rw [toRat, toRat, Finite, Finite]
    simp only [e]
    rw [if_neg (by omega), if_pos h, Nat.add_sub_cancel]
    exact ⟨rfl, by rw [Nat.add_mod_right]⟩
  · rw [if_pos (by simpa using h)]
    have e : (Fin.ofNat (2 ^ 64) x.magBits).val = x.bits.val - 2 ^ 63 := by
      rw [Fin.val_ofNat, magBits]; omega
    rw [toRat, toRat, Finite, Finite]
    simp only [e]
    rw [if_pos (by omega), if_neg h]
    refine ⟨by rw [neg_neg], ?_⟩
    have : (x.bits.val - 2 ^ 63) % 2 ^ 63 = x.bits.val % 2 ^ 63 := by omega
    rw [this]

/-- `-` gives the nearest double to the difference. -/
theorem sub_nearest {x y : F64} (hx : x.Finite) (hy : y.Finite) (h : (sub x y).Finite) :
    F64.Nearest (x.toRat - y.toRat) (sub x y) := by
  rw [sub_eq_add_neg, ← (negate_spec y).1]
  exact add_nearest hx ((negate_spec y).2.2 hy) h

/-- `*` gives the nearest double to the product. -/
theorem mul_nearest {x y : F64} (hx : x.Finite) (hy : y.Finite) (h : (mul x y).Finite) :
    F64.Nearest (x.toRat * y.toRat) (mul x y) := by
  rw [mul, (finite_tests hx).1, (finite_tests hx).2, (finite_tests hy).1, (finite_tests hy).2] at h ⊢
  simp only [Bool.or_self, Bool.false_eq_true, if_false] at h ⊢
  have hT : 0 < 2 ^ 2148 := pow_pos (by norm_num) _
  have := round_nearest _ _ _ hT h
  have e : x.toRat * y.toRat = (if (x.neg != y.neg) = true then -1 else 1) *
      (((x.magUnits * y.magUnits : ℕ) : ℚ) / ((2 ^ 2148 : ℕ) : ℚ)) := by
    rw [toRat_eq, toRat_eq, signedUnits, signedUnits, signed_eq, signed_eq]
    have hc : ((2 ^ 2148 : ℕ) : ℚ) = 2 ^ 1074 * 2 ^ 1074 := by
      rw [← pow_add]; exact Nat.cast_pow 2 2148
    rw [hc]
    generalize (2 : ℚ) ^ 1074 = T
    rw [Nat.cast_mul]
    cases x.neg <;> cases y.neg <;> simp <;> ring
  rw [e]; exact this

end Verif.F64
