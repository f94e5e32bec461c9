import Verif.Py.Value
/-
Conversion of text to numbers: `int(str)`, `fractions.Fraction(str)`, `float(Fraction)`.
-/
namespace Verif

/-- Value of `\d+(_\d+)*`, if the text has that form. -/
def digitsU : Str → Option Nat
  | s =>
    if s.all (fun c => isDigit c || c == 95) && s.head?.any isDigit && s.getLast?.any isDigit &&
        !Str.contains (py"__") s then
      some (digitsVal (s.filter isDigit))
    else none

/-- An optional sign: is it `-`, and the rest. -/
def takeSign : Str → Bool × Str
  | 43 :: s => (false, s)
  | 45 :: s => (true, s)
  | s => (false, s)

/-- `-n` or `n`. -/
def signed (neg : Bool) (n : Nat) : Int := if neg then -(n : Int) else n

/-- `int(s)` for text, base 10 (CPython's limit of 4300 digits is not modelled). -/
def pyInt (s : Str) : PyM Int :=
  let (neg, ds) := takeSign (Str.strip s)
  match digitsU ds with
  | some n => .ok (signed neg n)
  | none => .error .valueError

/-- A possibly empty run of digits and underscores of the form `\d*|\d+(_\d+)*`. -/
def digitsOpt (s : Str) : Option Nat := if s.isEmpty then some 0 else digitsU s

/-- Characters of a run of digits and underscores. -/
def isDigU (c : Nat) : Bool := isDigit c || c == 95

/-- The part of `Fraction(str)` after the numerator digits: exponent. -/
def fracExp (num den : Nat) : Str → Option (Nat × Nat)
  | [] => some (num, den)
  | c :: s =>
    if c = c!"e" || c = c!"E" then
      let (neg, ds) := takeSign s
      match digitsU ds with
      | some e => if neg then some (num, den * 10 ^ e) else some (num * 10 ^ e, den)
      | none => none
    else none

/-- The lookahead `(?=\d|\.\d)` of the pattern of `Fraction`. -/
def fracOk : Str → Bool
  | [] => false
  | c :: r => isDigit c || (c == c!"." && r.head?.any isDigit)

/-- `Fraction(str)` after whitespace and sign: numerator and denominator, not reduced. -/
def fracBody (s : Str) : Option (Nat × Nat) :=
  if !fracOk s then none
  else
    match digitsOpt (s.takeWhile isDigU) with
    | none => none
    | some num =>
      match s.dropWhile isDigU with
      | [] => some (num, 1)
      | c :: r =>
        if c = c!"/" then (digitsU r).map fun d => (num, d)
        else if c = c!"." then
          let dec := r.takeWhile isDigU
          match digitsOpt dec with
          | none => none
          | some d =>
            let k := (dec.filter isDigit).length
            fracExp (num * 10 ^ k + d) (10 ^ k) (r.dropWhile isDigU)
        else fracExp num 1 (c :: r)

/-- `Fraction(s)` for text, as sign, numerator and (non-zero) denominator, not reduced
(fractions.py of Python 3.11; 3.10 does not know underscores, 3.12 allows spaces around `/`). -/
def pyFraction (s : Str) : PyM (Bool × Nat × Nat) :=
  let (neg, body) := takeSign (Str.strip s)
  match fracBody body with
  | none => .error .valueError
  | some (n, d) => if d = 0 then .error .zeroDivisionError else .ok (neg, n, d)

/-! ### Rounding to binary64 -/

/-- `n / d` rounded to the nearest integer, ties to even. -/
def divHalfEven (n d : Nat) : Nat :=
  let q := n / d
  let r := n % d
  if 2 * r < d then q else if d < 2 * r then q + 1 else if q % 2 = 0 then q else q + 1

/-- The exponent `E` (unit in the last place `2^(E - 1074)`) for `n / d > 0`: the least `E` with
`n / d < 2^53 * 2^(E - 1074)`. -/
def ulpExp (n d : Nat) : Nat :=
  let a := n * 2 ^ 1074 / d
  (Nat.log2 a + 1) - 53

/-- Magnitude bits of the binary64 nearest to `n / d`; not yet checked for overflow. -/
def roundBits (n d : Nat) : Nat :=
  let E := ulpExp n d
  E * 2 ^ 52 + divHalfEven (n * 2 ^ 1074) (d * 2 ^ E)

/-- `float(Fraction)`, i.e. `numerator / denominator` on integers: correctly rounded, with
`OverflowError` when the result would be infinite.  Zero has no sign. -/
def ratioToF64 (neg : Bool) (n d : Nat) : PyM F64 :=
  if n = 0 then .ok ⟨0⟩
  else
    let b := roundBits n d
    if b < 2047 * 2 ^ 52 then
      .ok ⟨Fin.ofNat _ (b + if neg then 2 ^ 63 else 0)⟩
    else .error .overflowError

end Verif
