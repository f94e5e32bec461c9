import Verif.Model.MdGeom
import Verif.Model.CellParam
import Verif.Py.Float
/-
castep_outputs/parsers/parse_utilities.py: the standard header of the smaller output files.

The block is given by its remaining lines.
-/
namespace Verif

/-- `to_type(line.split(), typ)` -/
def wordsTo (typ : Ty) (line : Str) : PyM PyVal := to_type typ (strList (Str.split line))

/-- `to_type(get_numbers(line), float)` -/
def numbersOf (line : Str) : PyM PyVal := to_type .float (strList (Res.get_numbers line))

/-- The items of `match.groupdict()` as values. -/
def stackInto (d : Dict Key PyVal) : List (Key × PyVal) → PyM (Dict Key PyVal)
  | [] => .ok d
  | (k, v) :: row => do
    let d ← MdGeom.appendTo d k v
    stackInto d row

namespace Header

/-- `_, _, *key, val = line.split(); (" ".join(key), int(float(val)))`, parse_utilities.py:41-42. -/
def countLine (line : Str) : PyM (Str × Int) := do
  let (key, v) ← unpack2StarLast (Str.split line)
  let n ← intOfFloat v
  return (Str.join (py" ") key, n)

/-- `to_type(next(block).split(), float)` -/
def nextRow : List Str → PyM (PyVal × List Str)
  | [] => .error .stopIteration
  | l :: ls => do
    let v ← wordsTo .float l
    return (v, ls)

/-- `[to_type(next(block).split(), float) for _ in range(3)]`, parse_utilities.py:44-45. -/
def cellRows (rest : List Str) : PyM (PyVal × List Str) := do
  let (a, rest) ← nextRow rest
  let (b, rest) ← nextRow rest
  let (c, rest) ← nextRow rest
  return (.list [a, b, c], rest)

/-- `to_type(match.group("x", "y", "z"), float)` -/
def vecOf (m : Match) : PyM PyVal := to_type .float (.tuple (Res.FST_D.map fun d => optStr (m.named d)))

/-- One line that is neither a count nor the start of the cell vectors, parse_utilities.py:47-55.
`fix` is the compiled pattern of the extra options. -/
def otherLine (extra : Pat) (line : Str) (data coords : Dict Key PyVal) :
    PyM (Dict Key PyVal × Dict Key PyVal) :=
  match Res.ATOMIC_DATA_3VEC.search line with
  | some m => do
    let ind ← atreg_match m
    let v ← vecOf m
    return (data, coords.set ind v)
  | none =>
    match Res.FRACCOORDS_RE.match_ line with
    | some m => do
      let coords ← stackInto coords (groupVals m)
      return (data, coords)
    | none =>
      match extra.search line with
      | some m => do
        let v ← numbersOf line
        return (data.set (.str m.whole) v, coords)
      | none => .ok (data, coords)

/-- The loop of `parse_regular_header`, parse_utilities.py:39-55, with fuel. -/
def loop (extra : Pat) : Nat → List Str → Dict Key PyVal → Dict Key PyVal → PyM (Dict Key PyVal × Dict Key PyVal)
  | 0, _, data, coords => .ok (data, coords)
  | _ + 1, [], data, coords => .ok (data, coords)
  | fuel + 1, line :: rest, data, coords =>
    if Str.startsWith (Str.strip line) (py"Number of") then do
      let (key, n) ← countLine line
      loop extra fuel rest (data.set (.str key) (.int n)) coords
    else if Str.contains (py"Unit cell vectors") line then do
      let (v, rest) ← cellRows rest
      loop extra fuel rest (data.set (.str (py"unit_cell")) v) coords
    else do
      let (data, coords) ← otherLine extra line data coords
      loop extra fuel rest data coords

/-- The types of the coordinate columns, parse_utilities.py:57-61. -/
def coordTypes : List (Key × Ty) :=
  [(.str (py"index"), .int), (.str (py"u"), .float), (.str (py"v"), .float), (.str (py"w"), .float),
   (.str (py"mass"), .float)]

end Header

/-- `parse_regular_header`, parse_utilities.py:20-63.  `extra` is the compiled pattern
`(opt1|opt2|...)` of the extra options. -/
def parse_regular_header (extra : Pat) (lines : List Str) : PyM (Dict Key PyVal) := do
  let (data, coords) ← Header.loop extra (lines.length + 1) lines [] []
  let coords ← fix_data_types coords Header.coordTypes
  return data.set (.str (py"coords")) (.dict coords)

end Verif
