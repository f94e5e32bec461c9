import Verif.Spec.Number
import Verif.Spec.Text
import Verif.Py.Value
/-
Vocabulary for tables of numbers in text files.
-/
namespace Verif

/-- The magnitude does not round beyond the largest double. -/
def Numeral.InRange (n : Numeral) : Prop := |n.value| < (2 ^ 54 - 1) * 2 ^ 970

instance (n : Numeral) : Decidable n.InRange := inferInstanceAs (Decidable (_ < _))

namespace Spec

/-- The line consists of the given words, separated by whitespace. -/
abbrev Fields (line : Str) (ws : List Str) : Prop := Words (fun c => !isSpace c) line ws

/-- `rd` reads every numeral as the nearest double. -/
def Reads (rd : Numeral → F64) (ns : List Numeral) : Prop := ∀ n ∈ ns, F64.Nearest n.value (rd n)

/-- The integer denoted by an integer numeral. -/
def intOf (n : Numeral) : Int := Numeral.sgn n.sign * Numeral.nat n.ip

/-! ### Grids -/

/-- A row of a grid: grid indices and values. -/
structure GridRow where
  q : List Numeral
  vals : List Numeral
  deriving DecidableEq

/-- Three whole numbers, and values in range. -/
def GridRow.Ok (r : GridRow) : Prop :=
  r.q.length = 3 ∧ (∀ n ∈ r.q, n.Valid ∧ n.IsInt) ∧ ∀ n ∈ r.vals, n.Valid ∧ n.InRange

/-- The lines hold these rows, in order, among blank lines. -/
inductive GridLines : List Str → List GridRow → Prop
  | nil : GridLines [] []
  | blank {l ls rs} : Blank l → GridLines ls rs → GridLines (l :: ls) rs
  | row {l ls r rs} : Fields l ((r.q ++ r.vals).map Numeral.text) → GridLines ls rs → GridLines (l :: ls) (r :: rs)

/-- The line ends the header and names the columns after the three grid indices, in quotes. -/
def GridTitle (line : Str) (props : List Str) : Prop :=
  Occurs (py"END header") line ∧ ∃ a names b x y z,
    line = a ++ c!"\"" :: (names ++ c!"\"" :: b) ∧ c!"\"" ∉ a ∧ c!"\"" ∉ names ∧ Fields names (x :: y :: z :: props)

/-- The table of a grid: the indices of each row, and a column of values for each name. -/
def gridTable (rd : Numeral → F64) (props : List Str) (rows : List GridRow) : List (Key × PyVal) :=
  (.str (py"q"), .list (rows.map fun r => .tuple (r.q.map fun n => .int (intOf n)))) ::
    props.zipIdx.map fun p => (.str p.1, .list (rows.filterMap fun r => (r.vals[p.2]?).map fun n => .float (rd n)))

end Spec
end Verif
