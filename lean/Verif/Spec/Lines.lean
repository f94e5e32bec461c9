import Verif.Py.Basic
/-
Independent specification of "the lines of a text".
-/
namespace Verif.Spec

/-- The lines of a text, each including its newline (only the last may lack one). -/
def linesOf : Str → List Str
  | [] => []
  | c :: cs =>
    if c = 10 then [c] :: linesOf cs
    else match linesOf cs with
      | [] => [[c]]
      | l :: ls => (c :: l) :: ls

end Verif.Spec
