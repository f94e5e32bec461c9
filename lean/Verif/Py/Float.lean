import Verif.Py.Value
import Verif.Py.Num
import Verif.Py.Text
/-
Further built-in behaviour: truth values, conversion of floats, unpacking and padding.
-/
namespace Verif

/-- The magnitude bits of a double. -/
def F64.magBits (x : F64) : Nat := x.bits.val % 2 ^ 63
/-- The sign bit. -/
def F64.neg (x : F64) : Bool := 2 ^ 63 ≤ x.bits.val
/-- Not a NaN. -/
def F64.ordered (x : F64) : Bool := x.magBits ≤ 2047 * 2 ^ 52

/-- `bool(v)` -/
def PyVal.truthy : PyVal → Bool
  | .none => false
  | .bool b => b
  | .int i => i != 0
  | .float x => x.magBits != 0
  | .complex x y => x.magBits != 0 || y.magBits != 0
  | .str s => !s.isEmpty
  | .tuple l => !l.isEmpty
  | .list l => !l.isEmpty
  | .dict d => !d.isEmpty

/-- `int(x)` for a float: truncation towards zero. -/
def F64.truncInt (x : F64) : PyM Int :=
  let e := x.magBits / 2 ^ 52
  let f := x.magBits % 2 ^ 52
  if e = 2047 then .error (if f = 0 then .overflowError else .valueError)
  else
    let m := if e = 0 then f else f + 2 ^ 52
    let e := max e 1
    .ok (signed x.neg (if 1075 ≤ e then m * 2 ^ (e - 1075) else m / 2 ^ (1075 - e)))

/-- `int(float(s))` for text. -/
def intOfFloat (s : Str) : PyM Int := do
  let x ← pyFloat s
  x.truncInt

/-- `_, _, *mid, last = l` -/
def unpack2StarLast : List α → PyM (List α × α)
  | _ :: _ :: c :: rest => .ok ((c :: rest).dropLast, (c :: rest).getLast (by simp))
  | _ => .error .valueError

/-- `s.rsplit(maxsplit=1)[1]`: the last word, if there are two. -/
def lastWord (s : Str) : PyM Str :=
  match (Str.split s).reverse with
  | w :: _ :: _ => .ok w
  | _ => .error .indexError

/-- `format(n, ">4")` for an integer. -/
def pad4 (n : Int) : Str :=
  let t := intStr n
  List.replicate (4 - t.length) (c!" ") ++ t

/-- `[to_type(w, typ) for w in ws]`-style helper: a Python list of strings as a value. -/
def strList (l : List Str) : PyVal := .list (l.map .str)

end Verif
