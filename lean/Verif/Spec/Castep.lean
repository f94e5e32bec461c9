import Verif.Py.Value
import Verif.Spec.Convert
import Verif.Spec.Text
/-
Vocabulary for `.castep` files: banners, the runs of an appended file.
-/
namespace Verif.Spec
open Verif

/-- The line that starts a run: `Compiled for` after white space. -/
def Banner (l : Str) : Prop := ∃ sp w, Blank sp ∧ l = sp ++ py"Compiled for" ++ w

/-- An empty line. -/
def EmptyLine : Str := py"\n"

/-- The entries of a run that are converted at the end of the file. -/
def convertedKeys : List Key := [.str (py"energies"), .str (py"solvation")]

/-- `r'` holds the data of `r`: the same entries in the same order, except that what is under `energies` and
`solvation` is as it was before its lists became tuples. -/
structure SameRun (conv : Str → PyM PyVal) (r r' : Dict Key PyVal) : Prop where
  keys : r'.keys = r.keys
  same : ∀ k, k ∉ convertedKeys → r'.get? k = r.get? k
  conv : ∀ k ∈ convertedKeys, ∀ v, r'.get? k = some v → ∃ w, r.get? k = some w ∧ Converted conv v w

end Verif.Spec
