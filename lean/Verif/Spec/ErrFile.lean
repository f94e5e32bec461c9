import Verif.Spec.Text
import Verif.Py.Value
/-
Error files.
-/
namespace Verif.Spec
open Verif

/-- `t` is `s` without whitespace at either end. -/
def Stripped (s t : Str) : Prop :=
  (∃ g g', s = g ++ t ++ g' ∧ Blank g ∧ Blank g') ∧ (∀ c, t.head? = some c → isSpace c = false) ∧
  ∀ c, t.getLast? = some c → isSpace c = false

/-- What an error file says. -/
def errInfo (message : Str) (stack : List Str) : PyVal :=
  .dict [(.str (py"message"), .str message), (.str (py"stack"), .list (stack.map .str))]

end Verif.Spec
