import Verif.Py.Value
/-
Text files (universal newlines already applied; one position per character).
-/
namespace Verif

/-- A text file opened for reading. -/
structure TFile where
  text : Str
  pos : Nat
  deriving DecidableEq, Repr

/-- The first line of `s`, including its newline if it has one. -/
def firstLine : Str → Str
  | [] => []
  | c :: cs => if c = 10 then [c] else c :: firstLine cs

namespace TFile

/-- `f.readline()`: empty at the end of the file. -/
def readline (f : TFile) : Str × TFile :=
  let l := firstLine (f.text.drop f.pos)
  (l, { f with pos := f.pos + l.length })

/-- `f.tell()` -/
def tell (f : TFile) : Nat := f.pos
/-- `f.seek(p)` for an absolute position `p ≥ 0`. -/
def seek (f : TFile) (p : Nat) : TFile := { f with pos := p }

end TFile
end Verif
