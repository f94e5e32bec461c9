import Verif.Model.Res
import Verif.Model.FortranBin
import Verif.Py.Num
/-
castep_outputs/utilities/type_conv.py (text part; the byte parsers are in Model/FortranBin.lean).
-/
namespace Verif

/-- `_parse_float_or_rational`, type_conv.py:133-154. -/
def parse_float_or_rational (val : Str) : PyM F64 := do
  let (neg, n, d) ← pyFraction val
  ratioToF64 neg n d

/-- `_parse_logical`, type_conv.py:157-186. -/
def parse_logical (val : Str) : Bool := Str.title val ∈ [py"T", py"True", py"1"]

/-- `_TYPE_PARSERS`, type_conv.py:320-326.  `complex(str)` is not modelled: no code of the
repository converts text to `complex`. -/
def typeParser : Ty → Str → PyM PyVal
  | .complex, _ => .error .notImplementedError
  | .float, s => (parse_float_or_rational s).map .float
  | .int, s => (pyInt s).map .int
  | .bool, s => .ok (.bool (parse_logical s))
  | .str, s => .ok (.str s)

mutual
/-- `to_type`, type_conv.py:387-419. -/
def to_type (typ : Ty) : PyVal → PyM PyVal
  | .str s => typeParser typ s
  | .dict d => do
    let d ← toTypeDict typ d
    return .dict d
  | .tuple l | .list l => do
    let l ← toTypeList typ l
    return .tuple l
  | v => .ok v
/-- The generator of `to_type` on iterables. -/
def toTypeList (typ : Ty) : List PyVal → PyM (List PyVal)
  | [] => .ok []
  | v :: l => do
    let v ← to_type typ v
    let l ← toTypeList typ l
    return v :: l
/-- The comprehension of `to_type` on mappings. -/
def toTypeDict (typ : Ty) : List (Key × PyVal) → PyM (List (Key × PyVal))
  | [] => .ok []
  | (k, v) :: l => do
    let v ← to_type typ v
    let l ← toTypeDict typ l
    return (k, v) :: l
end

/-- `fix_data_types`, type_conv.py:23-53. -/
def fix_data_types (d : Dict Key PyVal) : List (Key × Ty) → PyM (Dict Key PyVal)
  | [] => .ok d
  | (key, typ) :: rest =>
    match d.get? key with
    | some v => do
      let v ← to_type typ v
      fix_data_types (d.set key v) rest
    | none => fix_data_types d rest

/-- The three patterns of `determine_type`, type_conv.py:88-96. -/
def detFloat : Pat := rx (py r"(?:\s*" ++ Res.EXPFNUMBER_s ++ py")+")
def detRational : Pat := rx (py r"(?:\s*" ++ Res.RATIONAL_s ++ py")+")
def detInt : Pat := rx (py r"(?:\s*" ++ Res.INTNUMBER_s ++ py")+")

/-- `determine_type`, type_conv.py:56-99. -/
def determine_type (data : Str) : Ty :=
  if Str.title data ∈ [py"T", py"True", py"F", py"False"] then .bool
  else if (detFloat.match_ data).isSome then .float
  else if (detRational.match_ data).isSome then .float
  else if (detInt.match_ data).isSome then .int
  else .str

/-- `parse_int_or_float` on a string, type_conv.py:106-130 (iterates over the characters). -/
def parse_int_or_float (numbers : Str) : PyM PyVal :=
  if numbers.all isDigit then to_type .int (.str numbers) else to_type .float (.str numbers)

/-- `parse_int_or_float` on a sequence of strings, type_conv.py:106-130. -/
def parse_int_or_float_seq (numbers : List Str) : PyM PyVal :=
  if numbers.all Str.isdigit then to_type .int (.list (numbers.map .str))
  else to_type .float (.list (numbers.map .str))

end Verif
