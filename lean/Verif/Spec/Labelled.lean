import Verif.Spec.CastepRows
/-
Tables of numbers with named columns in the smaller output files.
-/
namespace Verif.Spec
open Verif

/-- The line starts with a blank and consists of these numbers and possibly other words after them. -/
def NumLine (l : Str) (ns : List Numeral) : Prop :=
  (∃ c s, l = c :: s ∧ isSpace c = true) ∧ ∃ more, Fields l (ns.map Numeral.text ++ more)

/-- A row with a number in range for each of `k` columns. -/
def RowOk (k : Nat) (ns : List Numeral) : Prop := ns.length = k ∧ ∀ n ∈ ns, n.Valid ∧ n.InRange

instance (k : Nat) (ns : List Numeral) : Decidable (RowOk k ns) := inferInstanceAs (Decidable (_ ∧ ∀ n ∈ _, _))

/-- The table: for each name the column of values; no table without rows. -/
def columnTable (rd : Numeral → F64) (labels : List Str) (rows : List (List Numeral)) : List (Key × PyVal) :=
  if rows = [] then []
  else labels.zipIdx.map fun p => (.str p.1, .tuple (rows.filterMap fun r => (r[p.2]?).map fun n => .float (rd n)))

end Verif.Spec
