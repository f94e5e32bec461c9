import Verif.Py.Float
/-
Arithmetic on `float`: IEEE-754 binary64, round to nearest, ties to even.  (The payload and sign of a NaN
result are not modelled: one fixed NaN is returned.)
-/
namespace Verif.F64

/-- One NaN. -/
def nan : F64 := ⟨Fin.ofNat _ (2047 * 2 ^ 52 + 2 ^ 51)⟩
/-- An infinity. -/
def inf (neg : Bool) : F64 := ⟨Fin.ofNat _ (2047 * 2 ^ 52 + if neg then 2 ^ 63 else 0)⟩
def isNan (x : F64) : Bool := 2047 * 2 ^ 52 < x.magBits
def isInf (x : F64) : Bool := x.magBits == 2047 * 2 ^ 52

/-- The magnitude of a finite double in units of `2^-1074`. -/
def magUnits (x : F64) : Nat :=
  let e := x.magBits / 2 ^ 52
  let f := x.magBits % 2 ^ 52
  if e = 0 then f else (f + 2 ^ 52) * 2 ^ (e - 1)

/-- The value of a finite double in units of `2^-1074`. -/
def signedUnits (x : F64) : Int := signed x.neg x.magUnits

/-- The double nearest to `± n / d` in units of one; an infinity if there is none. -/
def round (neg : Bool) (n d : Nat) : F64 :=
  let s := if neg then 2 ^ 63 else 0
  if n = 0 then ⟨Fin.ofNat _ s⟩
  else
    let b := roundBits n d
    if b < 2047 * 2 ^ 52 then ⟨Fin.ofNat _ (b + s)⟩ else inf neg

/-- `-x` -/
def negate (x : F64) : F64 := if x.neg then ⟨Fin.ofNat _ x.magBits⟩ else ⟨Fin.ofNat _ (x.magBits + 2 ^ 63)⟩

/-- `x + y` -/
def add (x y : F64) : F64 :=
  if x.isNan || y.isNan then nan
  else if x.isInf then (if y.isInf && x.neg != y.neg then nan else x)
  else if y.isInf then y
  else
    let s := x.signedUnits + y.signedUnits
    if s = 0 then round (x.neg && y.neg) 0 1 else round (decide (s < 0)) s.natAbs (2 ^ 1074)

/-- `x - y` -/
def sub (x y : F64) : F64 := add x y.negate

/-- `x * y` -/
def mul (x y : F64) : F64 :=
  let neg := x.neg != y.neg
  if x.isNan || y.isNan then nan
  else if x.isInf || y.isInf then (if x.magBits = 0 || y.magBits = 0 then nan else inf neg)
  else round neg (x.magUnits * y.magUnits) (2 ^ 2148)

end Verif.F64
