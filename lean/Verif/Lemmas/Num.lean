import Verif.Py.Num
import Verif.Spec.Number
import Verif.Lemmas.NumberRe
import Mathlib.Tactic.Linarith
import Mathlib.Tactic.Ring
import Mathlib.Tactic.Positivity
import Mathlib.Tactic.FieldSimp
/-
Text to number: the value read is the value denoted; rounding to double is to the nearest.
-/
namespace Verif

/-! ### Rounding -/
namespace F64

/-- Magnitude in units of `2^-1074`. -/
def units (b : ℕ) : ℕ :=
  if b / 2 ^ 52 = 0 then b else (2 ^ 52 + b % 2 ^ 52) * 2 ^ (b / 2 ^ 52 - 1)

theorem mag_eq (b : ℕ) : mag b = (units b : ℚ) / 2 ^ 1074 := by
  simp only [mag, units]; split <;> push_cast <;> rfl

theorem units_succ (b : ℕ) : units b < units (b + 1) := by
  simp only [units]
  have hdm := Nat.div_add_mod b (2 ^ 52)
  have hm := Nat.mod_lt b (show 0 < 2 ^ 52 by decide)
  generalize b / 2 ^ 52 = q at hdm
  generalize b % 2 ^ 52 = r at hdm hm
  by_cases hr : r + 1 < 2 ^ 52
  · have h1 : (b + 1) / 2 ^ 52 = q := by omega
    have h2 : (b + 1) % 2 ^ 52 = r + 1 := by omega
    rw [h1, h2]
    by_cases h0 : q = 0
    · simp [h0]
    · simp only [h0, if_false]
      have : 0 < 2 ^ (q - 1) := Nat.two_pow_pos _
      nlinarith
  · have h1 : (b + 1) / 2 ^ 52 = q + 1 := by omega
    have h2 : (b + 1) % 2 ^ 52 = 0 := by omega
    have h3 : r = 2 ^ 52 - 1 := by omega
    rw [h1, h2]
    simp only [Nat.add_eq_zero_iff, one_ne_zero, and_false, if_false, Nat.add_sub_cancel, Nat.add_zero]
    by_cases h0 : q = 0
    · subst h0; simp; omega
    · simp only [h0, if_false]
      obtain ⟨p, rfl⟩ : ∃ p, q = p + 1 := ⟨q - 1, by omega⟩
      have : 0 < 2 ^ p := Nat.two_pow_pos _
      rw [show 2 ^ (p + 1) = 2 ^ p * 2 from Nat.pow_succ 2 p, h3]
      simp only [Nat.add_sub_cancel]
      generalize 2 ^ p = z at this
      omega

theorem units_strictMono : ∀ {a b : ℕ}, a < b → units a < units b := by
  intro a b h
  induction b with
  | zero => omega
  | succ b ih =>
    rcases Nat.lt_or_ge a b with h' | h'
    · exact (ih h').trans (units_succ b)
    · obtain rfl : a = b := by omega
      exact units_succ a

theorem units_mono {a b : ℕ} (h : a ≤ b) : units a ≤ units b := by
  rcases Nat.lt_or_ge a b with h' | h'
  · exact (units_strictMono h').le
  · obtain rfl : a = b := by omega
    exact le_rfl

theorem units_zero : units 0 = 0 := by simp [units]

theorem units_at (E k : ℕ) (hk : k ≤ 2 ^ 53) (hE : E = 0 ∨ 2 ^ 52 ≤ k) :
    units (E * 2 ^ 52 + k) = k * 2 ^ E := by
  simp only [units]
  rcases Nat.lt_or_ge k (2 ^ 52) with h | h
  · have hE0 : E = 0 := by omega
    subst hE0
    have : (0 * 2 ^ 52 + k) / 2 ^ 52 = 0 := by omega
    simp only [this, if_true]; simp
  · rcases Nat.lt_or_ge k (2 ^ 53) with h' | h'
    · have h1 : (E * 2 ^ 52 + k) / 2 ^ 52 = E + 1 := by omega
      have h2 : (E * 2 ^ 52 + k) % 2 ^ 52 = k - 2 ^ 52 := by omega
      rw [h1, h2]
      simp only [Nat.add_eq_zero_iff, one_ne_zero, and_false, if_false, Nat.add_sub_cancel]
      rw [show 2 ^ 52 + (k - 2 ^ 52) = k by omega]
    · have hk' : k = 2 ^ 53 := by omega
      have h1 : (E * 2 ^ 52 + k) / 2 ^ 52 = E + 2 := by omega
      have h2 : (E * 2 ^ 52 + k) % 2 ^ 52 = 0 := by omega
      simp only [h1, h2]
      rw [hk']
      simp only [Nat.add_eq_zero_iff, OfNat.ofNat_ne_zero, and_false, if_false, Nat.add_zero]
      rw [show E + 2 - 1 = E + 1 by omega, ← Nat.pow_add, ← Nat.pow_add]
      exact congrArg (fun i => 2 ^ i) (by omega)

end F64

open F64

theorem divHalfEven_cases (N D : ℕ) :
    (divHalfEven N D = N / D ∧ 2 * (N % D) ≤ D ∧ (2 * (N % D) = D → (N / D) % 2 = 0)) ∨
    (divHalfEven N D = N / D + 1 ∧ D ≤ 2 * (N % D) ∧ (2 * (N % D) = D → (N / D + 1) % 2 = 0)) := by
  simp only [divHalfEven]
  split
  · left; exact ⟨rfl, by omega, by omega⟩
  · split
    · right; exact ⟨rfl, by omega, by omega⟩
    · split
      · left; exact ⟨rfl, by omega, by omega⟩
      · right; exact ⟨rfl, by omega, by omega⟩

/-- Where the scaled value lies: `k * 2^E ≤ Q < (k + 1) * 2^E` with `k` in the mantissa range. -/
theorem ulp_bounds (n d : ℕ) :
    n * 2 ^ 1074 / (d * 2 ^ ulpExp n d) < 2 ^ 53 ∧
    (ulpExp n d = 0 ∨ 2 ^ 52 ≤ n * 2 ^ 1074 / (d * 2 ^ ulpExp n d)) := by
  generalize hN : n * 2 ^ 1074 = N
  have hE : ulpExp n d = (N / d).log2 + 1 - 53 := by rw [ulpExp, hN]
  rw [← Nat.div_div_eq_div_mul]
  generalize ha : N / d = a at hE
  have h1 : a < 2 ^ (a.log2 + 1) := Nat.lt_log2_self
  constructor
  · rw [Nat.div_lt_iff_lt_mul (Nat.two_pow_pos _), ← Nat.pow_add]
    exact h1.trans_le (Nat.pow_le_pow_right (by decide) (by omega))
  · by_cases h0 : ulpExp n d = 0
    · left; exact h0
    · right
      rw [Nat.le_div_iff_mul_le (Nat.two_pow_pos _), ← Nat.pow_add]
      have hane : a ≠ 0 := by
        rintro rfl
        simp [Nat.log2] at hE; exact h0 hE
      have := Nat.log2_self_le hane
      refine le_trans (Nat.pow_le_pow_right (by decide) ?_) this
      omega

/-- The candidate below and its successor enclose the value; the result is the nearer. -/
theorem roundBits_spec (n d : ℕ) (hd : 0 < d) : ∃ b0,
    (units b0 : ℚ) ≤ (n : ℚ) / d * 2 ^ 1074 ∧ (n : ℚ) / d * 2 ^ 1074 < (units (b0 + 1) : ℚ) ∧
    ((roundBits n d = b0 ∧ 2 * ((n : ℚ) / d * 2 ^ 1074 - units b0) ≤ units (b0 + 1) - units b0 ∧
        (2 * ((n : ℚ) / d * 2 ^ 1074 - units b0) = units (b0 + 1) - units b0 → roundBits n d % 2 = 0)) ∨
     (roundBits n d = b0 + 1 ∧ (units (b0 + 1) : ℚ) - units b0 ≤ 2 * ((n : ℚ) / d * 2 ^ 1074 - units b0) ∧
        (2 * ((n : ℚ) / d * 2 ^ 1074 - units b0) = units (b0 + 1) - units b0 → roundBits n d % 2 = 0))) := by
  obtain ⟨h1, h2⟩ := ulp_bounds n d
  have hrb : roundBits n d = ulpExp n d * 2 ^ 52 + divHalfEven (n * 2 ^ 1074) (d * 2 ^ ulpExp n d) := rfl
  generalize ulpExp n d = E at h1 h2 hrb
  have hD : 0 < d * 2 ^ E := Nat.mul_pos hd (Nat.two_pow_pos _)
  have hdiv := Nat.div_add_mod (n * 2 ^ 1074) (d * 2 ^ E)
  have hmod := Nat.mod_lt (n * 2 ^ 1074) hD
  have hcases := divHalfEven_cases (n * 2 ^ 1074) (d * 2 ^ E)
  generalize n * 2 ^ 1074 / (d * 2 ^ E) = k at h1 h2 hdiv hcases
  generalize n * 2 ^ 1074 % (d * 2 ^ E) = r at hdiv hmod hcases
  have hu0 : units (E * 2 ^ 52 + k) = k * 2 ^ E := units_at E k (by omega) (by omega)
  have hu1 : units (E * 2 ^ 52 + k + 1) = (k + 1) * 2 ^ E := by
    rw [Nat.add_assoc]; exact units_at E (k + 1) (by omega) (by omega)
  have hdq : (0 : ℚ) < d := by exact_mod_cast hd
  have hQ : (n : ℚ) / d * 2 ^ 1074 = k * 2 ^ E + (r : ℚ) / d := by
    have : ((d * 2 ^ E * k + r : ℕ) : ℚ) = ((n * 2 ^ 1074 : ℕ) : ℚ) := by rw [hdiv]
    rw [Nat.cast_mul n, Nat.cast_pow] at this
    rw [show ((2 : ℕ) : ℚ) = 2 from rfl] at this
    rw [div_mul_eq_mul_div, ← this]
    push_cast
    field_simp
  have hr0 : (0 : ℚ) ≤ (r : ℚ) / d := div_nonneg (Nat.cast_nonneg _) hdq.le
  have hr1 : (r : ℚ) / d < 2 ^ E := by
    rw [div_lt_iff₀ hdq]
    have : (r : ℚ) < ((d * 2 ^ E : ℕ) : ℚ) := by exact_mod_cast hmod
    push_cast at this; linarith
  refine ⟨E * 2 ^ 52 + k, ?_, ?_, ?_⟩
  · rw [hu0, hQ]; push_cast; linarith
  · rw [hu1, hQ]; push_cast; linarith
  · rw [hu0, hu1, hQ, hrb]
    push_cast
    have e1 : (2 : ℚ) * (k * 2 ^ E + (r : ℚ) / d - k * 2 ^ E) = (2 * r : ℕ) / d := by push_cast; ring
    have e2 : ((k : ℚ) + 1) * 2 ^ E - k * 2 ^ E = 2 ^ E := by ring
    rw [e1, e2]
    have tie : ((2 * r : ℕ) : ℚ) / d = 2 ^ E → 2 * r = d * 2 ^ E := by
      intro h
      rw [div_eq_iff hdq.ne'] at h
      have : ((2 * r : ℕ) : ℚ) = ((d * 2 ^ E : ℕ) : ℚ) := by rw [h]; push_cast; ring
      exact_mod_cast this
    rcases hcases with ⟨c1, c2, c3⟩ | ⟨c1, c2, c3⟩
    · left
      refine ⟨by rw [c1], ?_, ?_⟩
      · rw [div_le_iff₀ hdq]
        have : ((2 * r : ℕ) : ℚ) ≤ ((d * 2 ^ E : ℕ) : ℚ) := by exact_mod_cast c2
        push_cast at this ⊢; linarith
      · intro h
        have := c3 (tie h)
        rw [c1]; omega
    · right
      refine ⟨by rw [c1]; omega, ?_, ?_⟩
      · rw [le_div_iff₀ hdq]
        have : ((d * 2 ^ E : ℕ) : ℚ) ≤ ((2 * r : ℕ) : ℚ) := by exact_mod_cast c2
        push_cast at this ⊢; linarith
      · intro h
        have := c3 (tie h)
        rw [c1]; omega

/-- One of two neighbours, the nearer one, is nearest among all values outside the gap. -/
theorem nearest_aux {u v x c z : ℚ} (hu : u ≤ x) (hv : x < v)
    (hc : (c = u ∧ 2 * (x - u) ≤ v - u) ∨ (c = v ∧ v - u ≤ 2 * (x - u))) (hz : z ≤ u ∨ v ≤ z) :
    |c - x| ≤ |z - x| ∧ (z ≠ c → |c - x| = |z - x| → 2 * (x - u) = v - u) := by
  rcases hc with ⟨rfl, h⟩ | ⟨rfl, h⟩ <;> rcases hz with hz | hz
  · rw [abs_of_nonpos (by linarith : c - x ≤ 0), abs_of_nonpos (by linarith : z - x ≤ 0)]
    exact ⟨by linarith, fun hne he => absurd (by linarith) hne⟩
  · rw [abs_of_nonpos (by linarith : c - x ≤ 0), abs_of_nonneg (by linarith : 0 ≤ z - x)]
    exact ⟨by linarith, fun hne he => by linarith⟩
  · rw [abs_of_nonneg (by linarith : 0 ≤ c - x), abs_of_nonpos (by linarith : z - x ≤ 0)]
    exact ⟨by linarith, fun hne he => by linarith⟩
  · rw [abs_of_nonneg (by linarith : 0 ≤ c - x), abs_of_nonneg (by linarith : 0 ≤ z - x)]
    exact ⟨by linarith, fun hne he => absurd (by linarith) hne⟩

theorem units_gap (b0 y : ℕ) : (units y : ℚ) ≤ units b0 ∨ (units (b0 + 1) : ℚ) ≤ units y := by
  rcases Nat.lt_or_ge b0 y with h | h
  · right; exact_mod_cast units_mono (by omega : b0 + 1 ≤ y)
  · left; exact_mod_cast units_mono h

/-- The rounded magnitude is nearest among all magnitudes, ties to even. -/
theorem roundBits_nearest (n d : ℕ) (hd : 0 < d) (y : ℕ) :
    |(units (roundBits n d) : ℚ) - (n : ℚ) / d * 2 ^ 1074| ≤ |(units y : ℚ) - (n : ℚ) / d * 2 ^ 1074| ∧
    (units y ≠ units (roundBits n d) →
      |(units (roundBits n d) : ℚ) - (n : ℚ) / d * 2 ^ 1074| = |(units y : ℚ) - (n : ℚ) / d * 2 ^ 1074| →
      roundBits n d % 2 = 0) := by
  obtain ⟨b0, h1, h2, h3⟩ := roundBits_spec n d hd
  have hg := units_gap b0 y
  generalize (n : ℚ) / d * 2 ^ 1074 = Q at h1 h2 h3
  have hc : ((units (roundBits n d) : ℚ) = units b0 ∧ 2 * (Q - units b0) ≤ units (b0 + 1) - units b0) ∨
      ((units (roundBits n d) : ℚ) = units (b0 + 1) ∧ (units (b0 + 1) : ℚ) - units b0 ≤ 2 * (Q - units b0)) := by
    rcases h3 with ⟨h, h', -⟩ | ⟨h, h', -⟩
    · left; rw [h]; exact ⟨rfl, h'⟩
    · right; rw [h]; exact ⟨rfl, h'⟩
  have := nearest_aux h1 h2 hc hg
  refine ⟨this.1, fun hne he => ?_⟩
  have htie := this.2 (by exact_mod_cast hne) he
  rcases h3 with ⟨-, -, h⟩ | ⟨-, -, h⟩ <;> exact h htie

theorem abs_scale (a : ℕ) (q : ℚ) : |mag a - q| = |(units a : ℚ) - q * 2 ^ 1074| / 2 ^ 1074 := by
  have hT : (0 : ℚ) < 2 ^ 1074 := pow_pos (by norm_num) _
  rw [mag_eq]
  generalize (2 : ℚ) ^ 1074 = T at hT
  rw [show (units a : ℚ) / T - q = ((units a : ℚ) - q * T) / T by field_simp, abs_div, abs_of_pos hT]

theorem mag_nonneg (a : ℕ) : 0 ≤ mag a := by
  rw [mag_eq]; exact div_nonneg (Nat.cast_nonneg _) (pow_nonneg (by norm_num) _)

theorem mag_zero : mag 0 = 0 := by rw [mag_eq, units_zero]; simp

theorem mag_inj {a b : ℕ} (h : mag a = mag b) : units a = units b := by
  rw [mag_eq, mag_eq] at h
  have hT : (2 : ℚ) ^ 1074 ≠ 0 := pow_ne_zero _ (by norm_num)
  generalize (2 : ℚ) ^ 1074 = T at hT h
  rw [div_left_inj' hT] at h
  exact_mod_cast h

/-- Nearest magnitude, in numbers. -/
theorem roundBits_mag (n d : ℕ) (hd : 0 < d) (y : ℕ) :
    |mag (roundBits n d) - (n : ℚ) / d| ≤ |mag y - (n : ℚ) / d| ∧
    (mag y ≠ mag (roundBits n d) → |mag (roundBits n d) - (n : ℚ) / d| = |mag y - (n : ℚ) / d| →
      roundBits n d % 2 = 0) := by
  have hT : (0 : ℚ) < 2 ^ 1074 := pow_pos (by norm_num) _
  have h := roundBits_nearest n d hd y
  rw [abs_scale, abs_scale]
  refine ⟨div_le_div_of_nonneg_right h.1 hT.le, fun hne he => h.2 (fun e => hne ?_) ?_⟩
  · rw [mag_eq, mag_eq, e]
  · rwa [div_left_inj' hT.ne'] at he

/-- Every finite double is plus or minus a finite magnitude. -/
theorem toRat_cases (y : F64) : ∃ a, y.toRat = mag a ∨ y.toRat = - mag a := by
  rw [F64.toRat]; split
  · exact ⟨_, Or.inl rfl⟩
  · exact ⟨_, Or.inr rfl⟩

/-- The pieces of a converted ratio. -/
theorem ratioToF64_bits {neg : Bool} {n d : ℕ} {x : F64} (hn : n ≠ 0) (h : ratioToF64 neg n d = .ok x) :
    roundBits n d < 2047 * 2 ^ 52 ∧ x.bits.val = roundBits n d + (if neg then 2 ^ 63 else 0) := by
  rw [ratioToF64, if_neg hn] at h
  simp only at h
  generalize roundBits n d = b at h
  by_cases hb : b < 2047 * 2 ^ 52
  · rw [if_pos hb] at h
    refine ⟨hb, ?_⟩
    obtain rfl := (Except.ok.inj h).symm
    show (b + if neg = true then 2 ^ 63 else 0) % 2 ^ 64 = _
    apply Nat.mod_eq_of_lt
    cases neg <;> simp <;> omega
  · rw [if_neg hb] at h; cases h

/-- `float` of a ratio is the nearest double, or the ratio is out of range. -/
theorem ratioToF64_nearest (neg : Bool) (n d : ℕ) (hd : 0 < d) (x : F64) (h : ratioToF64 neg n d = .ok x) :
    F64.Nearest ((if neg then -1 else 1) * ((n : ℚ) / d)) x := by
  have hq0 : (0 : ℚ) ≤ (n : ℚ) / d := div_nonneg (Nat.cast_nonneg _) (Nat.cast_nonneg _)
  by_cases hn : n = 0
  · have hx0 : x = ⟨0⟩ := by
      rw [ratioToF64, if_pos hn] at h; exact (Except.ok.inj h).symm
    have hb0 : x.bits.val = 0 := by rw [hx0]; rfl
    have hx : x.toRat = 0 := by rw [F64.toRat, hb0, if_pos (by omega), mag_zero]
    refine ⟨?_, ?_, ?_⟩
    · rw [F64.Finite, hb0]; omega
    · intro y _; rw [hx, hn]; simp
    · intro y _ _ _; rw [hb0]
  · obtain ⟨hb, hbits⟩ := ratioToF64_bits hn h
    · have key := roundBits_mag n d hd
      generalize roundBits n d = b at hb hbits key
      generalize (n : ℚ) / d = q at hq0 key
      have hself : |mag b - q| ≤ q := by
        have := (key 0).1; rwa [mag_zero, zero_sub, abs_neg, abs_of_nonneg hq0] at this
      have hxr : x.toRat = (if neg then -1 else 1) * mag b := by
        rw [F64.toRat]
        have hP : b < 2 ^ 63 := by omega
        generalize 2 ^ 63 = P at hP hbits ⊢
        cases neg
        · rw [if_neg (by simp)] at hbits
          rw [if_pos (by omega), hbits, if_neg (by simp), one_mul, Nat.add_zero]
        · rw [if_pos rfl] at hbits
          rw [if_neg (by omega), hbits, if_pos rfl, Nat.add_sub_cancel, neg_one_mul]
      have hpar : x.bits.val % 2 = b % 2 := by rw [hbits]; cases neg <;> simp only [Bool.false_eq_true, if_false, if_true] <;> omega
      -- distances
      have hdist : |x.toRat - (if neg then -1 else 1) * q| = |mag b - q| := by
        rw [hxr, ← mul_sub, abs_mul]; cases neg <;> simp
      have hydist : ∀ y : F64, ∃ a, |y.toRat - (if neg then -1 else 1) * q| ≥ |mag a - q| ∧
          (y.toRat = (if neg then -1 else 1) * mag a ∨ (q < |y.toRat - (if neg then -1 else 1) * q|)) := by
        intro y
        obtain ⟨a, ha⟩ := toRat_cases y
        have hm := mag_nonneg a
        have opp : ∀ s : ℚ, (s = 1 ∨ s = -1) → y.toRat = - (s * mag a) →
            ∃ a', |y.toRat - s * q| ≥ |mag a' - q| ∧ (y.toRat = s * mag a' ∨ q < |y.toRat - s * q|) := by
          intro s hs hy
          have e : |y.toRat - s * q| = mag a + q := by
            rw [hy, show -(s * mag a) - s * q = -s * (mag a + q) by ring, abs_mul]
            rw [abs_of_nonneg (by linarith : 0 ≤ mag a + q)]
            rcases hs with rfl | rfl <;> simp
          rcases hm.eq_or_lt with hm | hm
          · refine ⟨a, ?_, Or.inl ?_⟩
            · rw [e, ← hm]; simp [abs_of_nonneg hq0]
            · rw [hy, ← hm]; simp
          · refine ⟨0, ?_, Or.inr ?_⟩
            · rw [e, mag_zero, zero_sub, abs_neg, abs_of_nonneg hq0]; linarith
            · rw [e]; linarith
        have same : ∀ s : ℚ, (s = 1 ∨ s = -1) → y.toRat = s * mag a →
            ∃ a', |y.toRat - s * q| ≥ |mag a' - q| ∧ (y.toRat = s * mag a' ∨ q < |y.toRat - s * q|) := by
          intro s hs hy
          refine ⟨a, ?_, Or.inl hy⟩
          rw [hy, ← mul_sub, abs_mul]
          rcases hs with rfl | rfl <;> simp
        cases neg
        · simp only [Bool.false_eq_true, if_false]
          rcases ha with ha | ha
          · exact same 1 (Or.inl rfl) (by simpa using ha)
          · exact opp 1 (Or.inl rfl) (by simpa using ha)
        · simp only [if_true]
          rcases ha with ha | ha
          · exact opp (-1) (Or.inr rfl) (by simpa using ha)
          · exact same (-1) (Or.inr rfl) (by simpa using ha)
      refine ⟨?_, ?_, ?_⟩
      · rw [F64.Finite, hbits]; cases neg <;> simp only [Bool.false_eq_true, if_false, if_true] <;> omega
      · intro y _
        obtain ⟨a, ha, -⟩ := hydist y
        rw [hdist]; exact (key a).1.trans ha
      · intro y _ hne he
        obtain ⟨a, ha, hy⟩ := hydist y
        rw [hdist] at he
        rw [hpar]
        rcases hy with hy | hy
        · refine (key a).2 ?_ ?_
          · intro e; exact hne (by rw [hy, hxr, e])
          · rw [he, hy, ← mul_sub, abs_mul]; cases neg <;> simp
        · exfalso; rw [← he] at hy; linarith

/-- `OverflowError` exactly for magnitudes that round beyond the largest double. -/
theorem roundBits_overflow (n d : ℕ) (hd : 0 < d) :
    2047 * 2 ^ 52 ≤ roundBits n d ↔ (2 ^ 54 - 1) * 2 ^ 970 * d ≤ n := by
  have hdq : (0 : ℚ) < d := by exact_mod_cast hd
  obtain ⟨W, hW⟩ : ∃ W : ℕ, W = 2 ^ 2044 := ⟨_, rfl⟩
  have hWT : (W : ℚ) = 2 ^ 970 * 2 ^ 1074 := by
    rw [hW, Nat.cast_pow, ← pow_add]; rfl
  have hWpos : (0 : ℚ) < W := by rw [hWT]; exact mul_pos (pow_pos (by norm_num) _) (pow_pos (by norm_num) _)
  have hU2 : units (2047 * 2 ^ 52) = 2 ^ 54 * W := by
    have := units_at 2045 (2 ^ 53) (le_refl _) (Or.inr (by omega))
    rw [show 2045 * 2 ^ 52 + 2 ^ 53 = 2047 * 2 ^ 52 by omega] at this
    rw [this, hW, ← Nat.pow_add, ← Nat.pow_add]
  have hU1 : units (2047 * 2 ^ 52 - 1) = (2 ^ 54 - 2) * W := by
    have := units_at 2045 (2 ^ 53 - 1) (by omega) (Or.inr (by omega))
    rw [show 2045 * 2 ^ 52 + (2 ^ 53 - 1) = 2047 * 2 ^ 52 - 1 by omega] at this
    have e : ∀ i : ℕ, 2 ^ (i + 1) = 2 * 2 ^ i := fun i => Nat.pow_succ'
    rw [this, show 2 ^ 54 - 2 = (2 ^ 53 - 1) * 2 by omega, Nat.mul_assoc, hW, ← e 2044]
  have hmid : (2 ^ 54 - 1) * 2 ^ 970 * d ≤ n ↔ (2 ^ 54 - 1 : ℚ) * W ≤ (n : ℚ) / d * 2 ^ 1074 := by
    have hT : (0 : ℚ) < 2 ^ 1074 := pow_pos (by norm_num) _
    rw [hWT, ← mul_assoc]
    rw [mul_le_mul_iff_left₀ hT, le_div_iff₀ hdq]
    rw [← Nat.cast_le (α := ℚ)]
    rw [Nat.cast_mul, Nat.cast_mul, Nat.cast_pow, Nat.cast_sub (by omega), Nat.cast_pow]
    norm_num
  rw [hmid]
  have near := roundBits_nearest n d hd
  generalize (n : ℚ) / d * 2 ^ 1074 = Q at near
  generalize hb : roundBits n d = b at near
  have hU1q : (units (2047 * 2 ^ 52 - 1) : ℚ) = (2 ^ 54 - 2) * W := by rw [hU1]; push_cast; norm_num
  have hU2q : (units (2047 * 2 ^ 52) : ℚ) = 2 ^ 54 * W := by rw [hU2]; push_cast; norm_num
  clear hmid hU1 hU2 hWT hW
  constructor
  · intro h
    have h1 := (near (2047 * 2 ^ 52 - 1)).1
    have h2 : (units (2047 * 2 ^ 52) : ℚ) ≤ units b := by exact_mod_cast units_mono h
    rw [hU1q] at h1
    rw [hU2q] at h2
    generalize (units b : ℚ) = ub at h1 h2
    rcases le_total ((2 ^ 54 - 2 : ℚ) * W) Q with h3 | h3
    · rw [abs_of_nonpos (by linarith : (2 ^ 54 - 2 : ℚ) * W - Q ≤ 0)] at h1
      have := le_abs_self (ub - Q)
      linarith
    · rw [abs_of_nonneg (by linarith : 0 ≤ (2 ^ 54 - 2 : ℚ) * W - Q)] at h1
      have := le_abs_self (ub - Q)
      linarith
  · intro h
    by_contra hlt
    have hle : b ≤ 2047 * 2 ^ 52 - 1 := by omega
    have h1 := near (2047 * 2 ^ 52)
    have h2 : (units b : ℚ) ≤ units (2047 * 2 ^ 52 - 1) := by exact_mod_cast units_mono hle
    have hne : units (2047 * 2 ^ 52) ≠ units b := by
      have : units b < units (2047 * 2 ^ 52) := units_strictMono (by omega)
      omega
    have hbu : (units b : ℚ) = (2 ^ 54 - 2) * W → b = 2047 * 2 ^ 52 - 1 := by
      intro e
      rw [← hU1q] at e
      have e' : units b = units (2047 * 2 ^ 52 - 1) := by exact_mod_cast e
      by_contra hne'
      have := units_strictMono (show b < 2047 * 2 ^ 52 - 1 by omega)
      omega
    obtain ⟨h1, h1'⟩ := h1
    have h1' := h1' hne
    rw [hU1q] at h2
    rw [hU2q] at h1 h1'
    generalize (units b : ℚ) = ub at h1 h1' h2 hbu
    have e1 : |ub - Q| = Q - ub := by rw [abs_of_nonpos (by linarith)]; ring
    rw [e1] at h1 h1'
    rcases le_total Q (2 ^ 54 * W) with h3 | h3
    · rw [abs_of_nonneg (by linarith : 0 ≤ (2 ^ 54 : ℚ) * W - Q)] at h1 h1'
      have e2 : ub = (2 ^ 54 - 2) * W := by linarith
      have := hbu e2
      have := h1' (by linarith)
      omega
    · rw [abs_of_nonpos (by linarith : (2 ^ 54 : ℚ) * W - Q ≤ 0)] at h1
      linarith

/-- `OverflowError` exactly for magnitudes that round beyond the largest double. -/
theorem ratioToF64_overflow (neg : Bool) (n d : ℕ) (hd : 0 < d) :
    ratioToF64 neg n d = .error .overflowError ↔ (2 ^ 54 - 1) * 2 ^ 970 * d ≤ n := by
  rw [← roundBits_overflow n d hd, ratioToF64]
  by_cases hn : n = 0
  · rw [if_pos hn]
    constructor
    · intro h; cases h
    · intro h
      exfalso
      rw [roundBits_overflow n d hd, hn] at h
      have h1 : 0 < (2 ^ 54 - 1) * 2 ^ 970 * d := Nat.mul_pos (Nat.mul_pos (by omega) (Nat.two_pow_pos _)) hd
      exact absurd h (Nat.not_le.2 h1)
  · rw [if_neg hn]
    simp only
    generalize roundBits n d = b
    by_cases hb : b < 2047 * 2 ^ 52
    · rw [if_pos hb]
      exact ⟨fun h => (by cases h), fun h => absurd hb (Nat.not_lt.2 h)⟩
    · rw [if_neg hb]
      exact ⟨fun _ => Nat.not_lt.1 hb, fun _ => rfl⟩

theorem ratioToF64_cases (neg : Bool) (n d : ℕ) :
    ratioToF64 neg n d = .error .overflowError ∨ ∃ x, ratioToF64 neg n d = .ok x := by
  rw [ratioToF64]
  split
  · exact Or.inr ⟨_, rfl⟩
  · simp only; split
    · exact Or.inr ⟨_, rfl⟩
    · exact Or.inl rfl

/-! ### Reading text -/

theorem contains_uu {s : Str} (h : ∀ c ∈ s, c ≠ 95) : Str.contains (py"__") s = false := by
  induction s with
  | nil => rfl
  | cons c s ih =>
    have hc := h c (by simp)
    simp only [Str.contains, Str.startsWith, List.isPrefixOf, Bool.or_eq_false_iff]
    refine ⟨?_, ih fun d hd => h d (by simp [hd])⟩
    simp; omega

theorem digitsU_digits {s : Str} (h : Numeral.AllDigits s) (hne : s ≠ []) :
    digitsU s = some (Numeral.nat s) := by
  have hd : ∀ c ∈ s, isDigit c = true := fun c hc => (isDigit_iff c).2 (h c hc)
  have hf : s.filter isDigit = s := List.filter_eq_self.2 hd
  rw [digitsU, if_pos]
  · rw [hf]; rfl
  · simp only [Bool.and_eq_true, List.all_eq_true, Bool.or_eq_true, Bool.not_eq_true']
    refine ⟨⟨⟨fun c hc => Or.inl (hd c hc), ?_⟩, ?_⟩, ?_⟩
    · cases s with
      | nil => exact absurd rfl hne
      | cons c s => simpa using hd c (by simp)
    · rw [List.getLast?_eq_some_getLast hne]
      simpa using hd _ (List.getLast_mem hne)
    · apply contains_uu
      intro c hc; have := h c hc; omega

theorem digitsOpt_digits {s : Str} (h : Numeral.AllDigits s) : digitsOpt s = some (Numeral.nat s) := by
  rw [digitsOpt]
  cases s with
  | nil => rfl
  | cons c s => simp only [List.isEmpty_cons, Bool.false_eq_true, if_false]; exact digitsU_digits h (by simp)

theorem lstrip_of_head {s : Str} (h : ∀ c, s.head? = some c → isSpace c = false) : Str.lstrip s = s := by
  cases s with
  | nil => rfl
  | cons c s => simp [Str.lstrip, h c rfl]

theorem strip_of_nospace {s : Str} (h : ∀ c ∈ s, isSpace c = false) : Str.strip s = s := by
  rw [Str.strip, lstrip_of_head, Str.rstrip]
  · have : (s.reverse).dropWhile isSpace = s.reverse := by
      have h' : ∀ c ∈ s.reverse, isSpace c = false := by simpa using h
      generalize s.reverse = r at h'
      cases r with
      | nil => rfl
      | cons c r => simp [h' c (by simp)]
    rw [this]; simp
  · intro c hc
    exact h c (List.mem_of_mem_head? hc)

theorem digit_nospace {c : Nat} (h : 48 ≤ c ∧ c ≤ 57) : isSpace c = false := by
  simp [isSpace]; omega

theorem signText_nospace (sg : Option Bool) : ∀ c ∈ Numeral.signText sg, isSpace c = false := by
  match sg with
  | none => simp [Numeral.signText]
  | some true => intro c hc; simp [Numeral.signText] at hc; subst hc; rfl
  | some false => intro c hc; simp [Numeral.signText] at hc; subst hc; rfl

/-- A printed number contains no whitespace. -/
theorem text_nospace (n : Numeral) (hn : n.Valid) : ∀ c ∈ n.text, isSpace c = false := by
  obtain ⟨sg, ip, fr, ex⟩ := n
  obtain ⟨h1, h2, -, h4⟩ := hn
  intro c hc
  simp only [Numeral.text, List.mem_append] at hc
  rcases hc with ((hc | hc) | hc) | hc
  · exact signText_nospace sg c hc
  · exact digit_nospace (h1 c hc)
  · match fr, h2, hc with
    | some fr, h2, hc =>
      simp [Numeral.fracText] at hc
      rcases hc with rfl | hc
      · rfl
      · exact digit_nospace (h2 c hc)
  · match ex, h4, hc with
    | some (up, sg', ds), h4, hc =>
      have h5 := (h4 _ rfl).1
      simp only [Numeral.expText, List.mem_append] at hc
      rcases hc with (hc | hc) | hc
      · cases up <;> simp at hc <;> subst hc <;> rfl
      · exact signText_nospace sg' c hc
      · exact digit_nospace (h5 c hc)

theorem takeSign_text (sg : Option Bool) (s : Str) (h : ∀ c, s.head? = some c → c ≠ 43 ∧ c ≠ 45) :
    takeSign (Numeral.signText sg ++ s) = (decide (sg = some true), s) := by
  match sg with
  | none =>
    simp only [Numeral.signText, List.nil_append]
    rw [takeSign.eq_def]
    split
    · exact absurd rfl (h 43 rfl).1
    · exact absurd rfl (h 45 rfl).2
    · rfl
  | some true => rfl
  | some false => rfl

theorem takeWhile_digU {ds rest : Str} (h : Numeral.AllDigits ds)
    (hr : ∀ c, rest.head? = some c → isDigU c = false) :
    (ds ++ rest).takeWhile isDigU = ds ∧ (ds ++ rest).dropWhile isDigU = rest := by
  induction ds with
  | nil =>
    cases rest with
    | nil => simp
    | cons c rest => simp [hr c rfl]
  | cons d ds ih =>
    have hd : isDigU d = true := by simp [isDigU, (isDigit_iff d).2 (h d (by simp))]
    have := ih fun c hc => h c (by simp [hc])
    simp [hd, this]

/-- Exponent handling. -/
theorem fracExp_text (num den : ℕ) (ex : Option (Bool × Option Bool × Str))
    (he : ∀ e, ex = some e → Numeral.AllDigits e.2.2 ∧ 1 ≤ e.2.2.length ∧ e.2.2.length ≤ 3) (hden : 0 < den) :
    ∃ a b, fracExp num den (Numeral.expText ex) = some (a, b) ∧ 0 < b ∧
      (a : ℚ) / b = (num : ℚ) / den * (10 : ℚ) ^ Numeral.expVal ex := by
  match ex with
  | none => exact ⟨num, den, rfl, hden, by simp [Numeral.expVal]⟩
  | some (up, sg, ds) =>
    obtain ⟨h1, h2, -⟩ := he _ rfl
    have hne : ds ≠ [] := by rintro rfl; simp at h2
    have hsgn : takeSign (Numeral.signText sg ++ ds) = (decide (sg = some true), ds) := by
      apply takeSign_text
      intro c hc
      have := h1 c (List.mem_of_mem_head? hc)
      omega
    have hdq : (den : ℚ) ≠ 0 := by exact_mod_cast hden.ne'
    have hfe : fracExp num den (Numeral.expText (some (up, sg, ds))) =
        if decide (sg = some true) then some (num, den * 10 ^ Numeral.nat ds)
        else some (num * 10 ^ Numeral.nat ds, den) := by
      cases up <;> simp [Numeral.expText, fracExp, hsgn, digitsU_digits h1 hne]
    by_cases hs : sg = some true
    · refine ⟨num, den * 10 ^ Numeral.nat ds, by rw [hfe]; simp [hs], Nat.mul_pos hden (Nat.pow_pos (by norm_num)), ?_⟩
      rw [Numeral.expVal, Numeral.sgn, if_pos hs]
      simp only [neg_mul, one_mul, zpow_neg, zpow_natCast]
      push_cast
      rw [div_mul_eq_div_div, div_eq_mul_inv (_ / _)]
    · refine ⟨num * 10 ^ Numeral.nat ds, den, by rw [hfe]; simp [hs], hden, ?_⟩
      rw [Numeral.expVal, Numeral.sgn, if_neg hs]
      simp only [one_mul, zpow_natCast]
      push_cast
      rw [mul_div_right_comm]

theorem expText_head (ex : Option (Bool × Option Bool × Str)) :
    ∀ c, (Numeral.expText ex).head? = some c → c = 69 ∨ c = 101 := by
  intro c hc
  match ex, hc with
  | some (up, sg, ds), hc => cases up <;> simp [Numeral.expText] at hc <;> omega

/-- The mantissa and exponent of a printed number are read as the number denoted. -/
theorem fracBody_text (n : Numeral) (hn : n.Valid) :
    ∃ a b, fracBody (n.ip ++ Numeral.fracText n.frac ++ Numeral.expText n.exp) = some (a, b) ∧ 0 < b ∧
      (Numeral.sgn n.sign : ℚ) * ((a : ℚ) / b) = n.value := by
  obtain ⟨sg, ip, fr, ex⟩ := n
  obtain ⟨h1, h2, h3, h4⟩ := hn
  simp only at h1 h2 h3 h4 ⊢
  match fr with
  | none =>
    simp only [Option.getD_none, List.append_nil] at h3
    simp only [Numeral.fracText, List.append_nil]
    have hr : ∀ c, (Numeral.expText ex).head? = some c → isDigU c = false := by
      intro c hc; rcases expText_head ex c hc with rfl | rfl <;> rfl
    obtain ⟨e1, e2⟩ := takeWhile_digU h1 hr
    obtain ⟨a, b, e3, hb, hv⟩ := fracExp_text (Numeral.nat ip) 1 ex h4 (by norm_num)
    refine ⟨a, b, ?_, hb, ?_⟩
    · have hok : fracOk (ip ++ Numeral.expText ex) = true := by
        cases ip with
        | nil => exact absurd rfl h3
        | cons c ip => simp [fracOk, (isDigit_iff c).2 (h1 c (by simp))]
      rw [fracBody, hok]
      simp only [Bool.not_true, Bool.false_eq_true, if_false, e1, e2, digitsOpt_digits h1]
      cases hx : Numeral.expText ex with
      | nil => rw [hx] at e3; simpa [fracExp] using e3
      | cons c r =>
        have := expText_head ex c (by rw [hx]; rfl)
        rw [hx] at e3
        have h46 : c ≠ 46 := by omega
        have h47 : c ≠ 47 := by omega
        simp only [h46, h47, if_false]; exact e3
    · rw [hv, Numeral.value]; simp [Numeral.nat]; ring
  | some fr =>
    simp only [Option.getD_some] at h2 h3
    simp only [Numeral.fracText]
    have hr : ∀ c, (46 :: (fr ++ Numeral.expText ex)).head? = some c → isDigU c = false := by
      intro c hc; simp at hc; subst hc; rfl
    have hr' : ∀ c, (Numeral.expText ex).head? = some c → isDigU c = false := by
      intro c hc; rcases expText_head ex c hc with rfl | rfl <;> rfl
    obtain ⟨e1, e2⟩ := takeWhile_digU h1 hr
    obtain ⟨e1', e2'⟩ := takeWhile_digU h2 hr'
    have hfl : (fr.filter isDigit).length = fr.length := by
      rw [List.filter_eq_self.2 fun c hc => (isDigit_iff c).2 (h2 c hc)]
    obtain ⟨a, b, e3, hb, hv⟩ := fracExp_text (Numeral.nat ip * 10 ^ fr.length + Numeral.nat fr) (10 ^ fr.length) ex h4
      (Nat.pow_pos (by norm_num))
    refine ⟨a, b, ?_, hb, ?_⟩
    · have hok : fracOk (ip ++ 46 :: fr ++ Numeral.expText ex) = true := by
        cases ip with
        | nil =>
          cases fr with
          | nil => simp at h3
          | cons c fr => simp [fracOk, (isDigit_iff c).2 (h2 c (by simp))]
        | cons c ip => simp [fracOk, (isDigit_iff c).2 (h1 c (by simp))]
      rw [fracBody, hok]
      simp only [Bool.not_true, Bool.false_eq_true, if_false]
      rw [List.append_assoc, List.cons_append]
      simp only [e1, e2, e1', e2', digitsOpt_digits h1, digitsOpt_digits h2, hfl]
      simpa using e3
    · rw [hv, Numeral.value]
      simp only [Option.getD_some]
      push_cast
      have : (10 : ℚ) ^ fr.length ≠ 0 := pow_ne_zero _ (by norm_num)
      field_simp

/-- `Fraction(text)` succeeds and has the value denoted. -/
theorem pyFraction_text (n : Numeral) (hn : n.Valid) :
    ∃ a b, pyFraction n.text = .ok (decide (n.sign = some true), a, b) ∧ 0 < b ∧
      (if decide (n.sign = some true) then -1 else 1) * ((a : ℚ) / b) = n.value := by
  obtain ⟨a, b, h1, h2, h3⟩ := fracBody_text n hn
  refine ⟨a, b, ?_, h2, ?_⟩
  · rw [pyFraction, strip_of_nospace (text_nospace n hn)]
    have : takeSign n.text = (decide (n.sign = some true), n.ip ++ Numeral.fracText n.frac ++ Numeral.expText n.exp) := by
      rw [Numeral.text, List.append_assoc, List.append_assoc]
      rw [takeSign_text, List.append_assoc]
      intro c hc
      obtain ⟨v1, v2, v3, -⟩ := hn
      cases hip : n.ip with
      | cons d ip =>
        rw [hip] at hc; simp at hc; subst hc
        have := v1 d (by simp [hip]); omega
      | nil =>
        rw [hip] at hc v3
        cases hfr : n.frac with
        | none => rw [hfr] at v3; simp at v3
        | some fr => rw [hfr] at hc; simp [Numeral.fracText] at hc; omega
    rw [this]
    simp only [h1, h2.ne', if_false]
  · rw [← h3, Numeral.sgn]
    by_cases h : n.sign = some true <;> simp [h]

/-- An integer text is read by `int`. -/
theorem pyInt_text (sg : Option Bool) (ds : Str) (h : Numeral.AllDigits ds) (hne : ds ≠ []) :
    pyInt (Numeral.signText sg ++ ds) = .ok (Numeral.sgn sg * Numeral.nat ds) := by
  have hns : ∀ c ∈ Numeral.signText sg ++ ds, isSpace c = false := by
    intro c hc
    rcases List.mem_append.1 hc with hc | hc
    · exact signText_nospace sg c hc
    · exact digit_nospace (h c hc)
  rw [pyInt, strip_of_nospace hns, takeSign_text]
  · simp only [digitsU_digits h hne]
    by_cases hs : sg = some true <;> simp [hs, signed, Numeral.sgn]
  · intro c hc
    have := h c (List.mem_of_mem_head? hc)
    omega

end Verif
