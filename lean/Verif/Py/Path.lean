import Verif.Py.Text
/-
`pathlib.Path` on POSIX (Python before 3.14): pure path arithmetic.
-/
namespace Verif

/-- A path: the root (`""`, `"/"` or `"//"`) and the parts after it. -/
structure Path where
  root : Str
  parts : List Str
  deriving DecidableEq, Repr

namespace Path

/-- `Path(s)`: repeated slashes and `.` parts are dropped; exactly two leading slashes are kept. -/
def ofStr (s : Str) : Path :=
  let lead := (s.takeWhile (· == c!"/")).length
  ⟨if lead = 0 then [] else if lead = 2 then py"//" else py"/",
   (Str.splitC (c!"/") s).filter fun p => !p.isEmpty && p != py"."⟩

/-- `str(p)` -/
def toStr (p : Path) : Str :=
  if p.root.isEmpty && p.parts.isEmpty then py"." else p.root ++ Str.join (py"/") p.parts

/-- `p.name` -/
def name (p : Path) : Str := p.parts.getLastD []

/-- The name without its suffix, and the suffix (with the dot): split at the last dot unless that is the
first or last character. -/
def splitName (n : Str) : Str × Str :=
  let tail := n.reverse.takeWhile (· != c!".")
  let head := n.take (n.length - tail.length)
  if head.length ≤ 1 || tail.isEmpty then (n, []) else (head.dropLast, c!"." :: tail.reverse)

/-- `p.suffix` -/
def suffix (p : Path) : Str := (splitName p.name).2
/-- `p.stem` -/
def stem (p : Path) : Str := (splitName p.name).1
/-- `p.parent` -/
def parent (p : Path) : Path := ⟨p.root, p.parts.dropLast⟩
/-- `p.with_suffix(s)` for a suffix that is empty or begins with a dot. -/
def withSuffix (p : Path) (s : Str) : PyM Path :=
  if p.name.isEmpty then .error .valueError
  else .ok ⟨p.root, p.parts.dropLast ++ [p.stem ++ s]⟩

end Path

end Verif
