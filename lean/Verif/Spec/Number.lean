import Verif.Py.Value
import Mathlib.Algebra.Field.Rat
import Mathlib.Algebra.Order.Ring.Rat
/-
What a printed decimal number is, and what number it denotes.  What a double denotes, and what it
means to be the double nearest to a rational.
-/
namespace Verif

/-- A printed decimal number: optional sign, integer digits, optionally a point with further digits,
optionally an exponent (its letter, sign and digits). -/
structure Numeral where
  sign : Option Bool            -- `some true`: "-", `some false`: "+"
  ip : Str
  frac : Option Str
  exp : Option (Bool × Option Bool × Str)   -- (is the letter `E` rather than `e`?, sign, digits)
  deriving DecidableEq, Repr

namespace Numeral

/-- Only decimal digits. -/
def AllDigits (s : Str) : Prop := ∀ c ∈ s, 48 ≤ c ∧ c ≤ 57

instance (s : Str) : Decidable (AllDigits s) := inferInstanceAs (Decidable (∀ c ∈ s, _))

/-- The text of a sign. -/
def signText : Option Bool → Str
  | none => []
  | some true => py"-"
  | some false => py"+"

/-- The text of an exponent. -/
def expText : Option (Bool × Option Bool × Str) → Str
  | none => []
  | some (upper, sg, ds) => (if upper then py"E" else py"e") ++ signText sg ++ ds

/-- The text of the digits after the integer part. -/
def fracText : Option Str → Str
  | none => []
  | some ds => c!"." :: ds

/-- The printed text. -/
def text (n : Numeral) : Str := signText n.sign ++ n.ip ++ fracText n.frac ++ expText n.exp

/-- Well-formed: at least one digit in the mantissa, one to three in the exponent. -/
def Valid (n : Numeral) : Prop :=
  AllDigits n.ip ∧ AllDigits (n.frac.getD []) ∧ n.ip ++ n.frac.getD [] ≠ [] ∧
  ∀ e, n.exp = some e → AllDigits e.2.2 ∧ 1 ≤ e.2.2.length ∧ e.2.2.length ≤ 3

instance (n : Numeral) : Decidable n.Valid :=
  match h : n.exp with
  | none => decidable_of_iff (AllDigits n.ip ∧ AllDigits (n.frac.getD []) ∧ n.ip ++ n.frac.getD [] ≠ [])
      (by simp [Valid, h])
  | some e => decidable_of_iff (AllDigits n.ip ∧ AllDigits (n.frac.getD []) ∧ n.ip ++ n.frac.getD [] ≠ [] ∧
      AllDigits e.2.2 ∧ 1 ≤ e.2.2.length ∧ e.2.2.length ≤ 3) (by simp [Valid, h])

/-- Value of a digit string, most significant first. -/
def nat (ds : Str) : ℕ := ds.foldl (fun a c => a * 10 + (c - 48)) 0

/-- `±1` -/
def sgn (s : Option Bool) : ℤ := if s = some true then -1 else 1

/-- The exponent as an integer. -/
def expVal : Option (Bool × Option Bool × Str) → ℤ
  | none => 0
  | some (_, sg, ds) => sgn sg * (nat ds : ℤ)

/-- The number denoted. -/
def value (n : Numeral) : ℚ :=
  (sgn n.sign : ℚ) * ((nat n.ip : ℚ) + (nat (n.frac.getD []) : ℚ) / 10 ^ (n.frac.getD []).length)
    * (10 : ℚ) ^ expVal n.exp

end Numeral

/-- Plain integers. -/
def Numeral.IsInt (n : Numeral) : Prop := n.frac = none ∧ n.exp = none
instance (n : Numeral) : Decidable n.IsInt := inferInstanceAs (Decidable (_ ∧ _))

/-! ### Numbers in a line of text -/

/-- Text between two printed numbers: not empty, no digit in it, it does not begin with a character
that could continue the number before it, and does not end with one that could begin the next. -/
structure Between (g : Str) : Prop where
  nonempty : g ≠ []
  noDigit : ∀ c ∈ g, ¬ (48 ≤ c ∧ c ≤ 57)
  first : ∀ c, g.head? = some c → c ∉ py"+-.Ee"
  last : ∀ c, g.getLast? = some c → c ∉ py"+-."

/-- Text before the first number. -/
structure Leading (g : Str) : Prop where
  noDigit : ∀ c ∈ g, ¬ (48 ≤ c ∧ c ≤ 57)
  last : ∀ c, g.getLast? = some c → c ∉ py"+-."

/-- Text after the last number. -/
structure Trailing (g : Str) : Prop where
  noDigit : ∀ c ∈ g, ¬ (48 ≤ c ∧ c ≤ 57)
  first : ∀ c, g.head? = some c → c ∉ py"+-.Ee"

/-! ### Doubles -/
namespace F64

/-- Magnitude denoted by the low 63 bits of a finite double: `m * 2^(E - 1074)` with the implicit
leading bit unless the exponent field is zero. -/
def mag (b : ℕ) : ℚ :=
  if b / 2 ^ 52 = 0 then (b : ℚ) / 2 ^ 1074
  else ((2 ^ 52 + b % 2 ^ 52 : ℕ) : ℚ) * 2 ^ (b / 2 ^ 52 - 1) / 2 ^ 1074

/-- Is the double finite? -/
def Finite (x : F64) : Prop := x.bits.val % 2 ^ 63 < 2047 * 2 ^ 52

instance (x : F64) : Decidable x.Finite := inferInstanceAs (Decidable (_ < _))

/-- The number denoted by a finite double. -/
def toRat (x : F64) : ℚ :=
  if x.bits.val < 2 ^ 63 then mag x.bits.val else - mag (x.bits.val - 2 ^ 63)

/-- `x` is a finite double, no finite double is closer to `q`, and in case of a tie its last bit is
zero. -/
structure Nearest (q : ℚ) (x : F64) : Prop where
  finite : x.Finite
  closest : ∀ y : F64, y.Finite → |x.toRat - q| ≤ |y.toRat - q|
  tie_even : ∀ y : F64, y.Finite → y.toRat ≠ x.toRat → |x.toRat - q| = |y.toRat - q| →
    x.bits.val % 2 = 0

end F64
end Verif
