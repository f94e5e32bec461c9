import Verif.Py.Bytes
/-
castep_outputs/bin_parsers/fortran_bin_parser.py and the byte parsers of
castep_outputs/utilities/type_conv.py.

Operations return the result (or exception) together with the file state, which Python keeps
also when an exception is raised.
-/
namespace Verif

/-- `get_only`, utilities/utility.py:605-628.  `val, *rest = seq` raises `ValueError` on an empty
sequence. -/
def get_only (seq : List α) : PyM α :=
  match seq with
  | [] => .error .valueError
  | [v] => .ok v
  | _ :: _ :: _ => .error .valueError

/-- Type objects occurring as conversion targets. -/
inductive Ty
  | complex | float | int | bool | str
  deriving DecidableEq, Repr

/-- Second argument of `parse_bytes`: `T`, `(T, ...)`, or anything else. -/
inductive BTyp
  | one (t : Ty) | many (t : Ty) | other
  deriving DecidableEq, Repr

/-- `_parse_float_bytes`, type_conv.py:189-213. -/
def parse_float_bytes (val : Bytes) : PyM (List PyVal) :=
  (unpack 8 decF64 val).map (·.map .float)

/-- `_parse_int_bytes`, type_conv.py:216-240. -/
def parse_int_bytes (val : Bytes) : PyM (List PyVal) :=
  (unpack 4 decInt32 val).map (·.map .int)

/-- `_parse_bool_bytes`, type_conv.py:243-267: `bool` of each integer. -/
def parse_bool_bytes (val : Bytes) : PyM (List PyVal) :=
  (unpack 4 decInt32 val).map (·.map fun i => .bool (i != 0))

/-- `l[::2]` -/
def everyOther : List α → List α
  | [] => []
  | [a] => [a]
  | a :: _ :: l => a :: everyOther l

/-- `_parse_complex_bytes`, type_conv.py:270-295: `map(complex, tmp[::2], tmp[1::2])` stops at the
shorter argument. -/
def parse_complex_bytes (val : Bytes) : PyM (List PyVal) :=
  (unpack 8 decF64 val).map fun tmp =>
    List.zipWith PyVal.complex (everyOther tmp) (everyOther (tmp.drop 1))

/-- `_parse_str_bytes`, type_conv.py:298-317: `str(val, encoding="ascii")`. -/
def parse_str_bytes (val : Bytes) : PyM (List PyVal) :=
  if val.all (fun b => b.val < 128) then .ok [.str (val.map (·.val))]
  else .error .unicodeDecodeError

/-- `_BYTE_PARSERS`, type_conv.py:327-333. -/
def byteParser : Ty → Bytes → PyM (List PyVal)
  | .complex => parse_complex_bytes
  | .float => parse_float_bytes
  | .bool => parse_bool_bytes
  | .int => parse_int_bytes
  | .str => parse_str_bytes

/-- `parse_bytes`, type_conv.py:341-384. -/
def parse_bytes (data_in : Bytes) : BTyp → PyM PyVal
  | .many t => do
    let out ← byteParser t data_in
    return .tuple out
  | .one t => do
    let out ← byteParser t data_in
    get_only out
  | .other => .error .typeError

namespace FReader

/-- `FortranBinaryReader.__next__`, fortran_bin_parser.py:50-59. -/
def next (f : BFile) : PyM Bytes × BFile :=
  let (bin_size, f) := f.read 4
  if bin_size.isEmpty then (.error .stopIteration, f)
  else
    let size := beVal bin_size
    let (data, f) := f.read size
    let (_, f) := f.read 4
    (.ok data, f)

/-- The loop of `skip` for negative counts, fortran_bin_parser.py:84-87. -/
def skipBackLoop : Nat → BFile → PyM Unit × BFile
  | 0, f => (.ok (), f)
  | k + 1, f =>
    let (b, f) := f.read 4
    match f.seekCur (-(beVal b : Int) - 12) with
    | .error e => (.error e, f)
    | .ok f => skipBackLoop k f

/-- The loop of `skip` for positive counts, fortran_bin_parser.py:93-95. -/
def skipFwdLoop : Nat → BFile → PyM Unit × BFile
  | 0, f => (.ok (), f)
  | k + 1, f =>
    let (b, f) := f.read 4
    match f.seekCur ((beVal b : Int) + 4) with
    | .error e => (.error e, f)
    | .ok f => skipFwdLoop k f

/-- `FortranBinaryReader.skip`, fortran_bin_parser.py:71-95. -/
def skip (n : Int) (f : BFile) : PyM Unit × BFile :=
  if n = 0 then (.ok (), f)
  else if n < 0 then
    match f.seekCur (-4) with
    | .error e => (.error e, f)
    | .ok f =>
      match skipBackLoop (n.natAbs - 1) f with
      | (.error e, f) => (.error e, f)
      | (.ok (), f) =>
        let (b, f) := f.read 4
        match f.seekCur (-(beVal b : Int) - 8) with
        | .error e => (.error e, f)
        | .ok f => (.ok (), f)
  else skipFwdLoop n.toNat f

/-- `FortranBinaryReader.rewind`, fortran_bin_parser.py:61-69. -/
def rewind (n : Int) (f : BFile) : PyM Unit × BFile := skip (-n) f

/-- `FortranBinaryReader.get`, fortran_bin_parser.py:101-114. -/
def get (typ : BTyp) (f : BFile) : PyM PyVal × BFile :=
  match next f with
  | (.error e, f) => (.error e, f)
  | (.ok d, f) => (parse_bytes d typ, f)

/-- `FortranBinaryReader.get_dtype_dict`, fortran_bin_parser.py:205-221.  `zip(dtypes.items(), self)`
asks the mapping first and the reader second, and stops silently when the reader does. -/
def get_dtype_dict : List (Key × BTyp) → BFile → PyM (Dict Key PyVal) × BFile
  | [], f => (.ok [], f)
  | (key, typ) :: dtypes, f =>
    match next f with
    | (.error .stopIteration, f) => (.ok [], f)
    | (.error e, f) => (.error e, f)
    | (.ok datum, f) =>
      match parse_bytes datum typ with
      | .error e => (.error e, f)
      | .ok v =>
        match get_dtype_dict dtypes f with
        | (.error e, f) => (.error e, f)
        | (.ok d, f) => (.ok ((key, v) :: d), f)

/-- `tuple(FortranBinaryReader.get_dtype_iter(dtypes))`, fortran_bin_parser.py:180-194.  A
`StopIteration` inside the generator body becomes `RuntimeError` (PEP 479). -/
def get_dtype_iter : List BTyp → BFile → PyM (List PyVal) × BFile
  | [], f => (.ok [], f)
  | typ :: dtypes, f =>
    match get typ f with
    | (.error .stopIteration, f) => (.error .runtimeError, f)
    | (.error e, f) => (.error e, f)
    | (.ok v, f) =>
      match get_dtype_iter dtypes f with
      | (.error e, f) => (.error e, f)
      | (.ok l, f) => (.ok (v :: l), f)

end FReader
end Verif
