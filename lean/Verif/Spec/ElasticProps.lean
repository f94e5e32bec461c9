import Verif.Spec.LineTables
/-
The elastic properties in a `.castep` file.
-/
namespace Verif.Spec
open Verif

/-- What the lines say: something with a name, the speeds of sound, a heading. -/
inductive ElasticItem where
  | value (key : Str) (ns : List Numeral)
  | sound (rows : List (List Numeral))
  | other

namespace ElasticItem

def nums : ElasticItem → List Numeral
  | value _ ns => ns
  | sound rows => rows.flatten
  | other => []

/-- The lines: a name, `::` and numbers; or a table up to the next blank line. -/
def Lines : ElasticItem → List Str → Prop
  | value key ns, ls => ∃ name v, ls = [name ++ (py"::" ++ v)] ∧ ¬ Occurs (py"::") (name ++ py":") ∧ KeyName name key ∧
      HasNumbers (name ++ (py"::" ++ v)) ns
  | sound rows, ls => ∃ title inner last, ls = title :: (inner ++ [last]) ∧ ¬ Occurs (py"::") title ∧ Occurs (py"Speed of Sound") title ∧
      HasNumbers title [] ∧ (∀ l ∈ inner, ¬ Blank l) ∧ Blank last ∧
      Interleaved (fun l => HasNumbers l []) (fun l ns => ns ≠ [] ∧ HasNumbers l ns) inner rows
  | other, ls => ∃ l, ls = [l] ∧ ¬ Occurs (py"::") l ∧ ¬ Occurs (py"Speed of Sound") l

def numbers (rd : Numeral → F64) (ns : List Numeral) : PyVal := .tuple (ns.map fun n => .float (rd n))

/-- What is reported; a single number as such. -/
def entry (rd : Numeral → F64) : ElasticItem → Option (Key × PyVal)
  | value key [n] => some (.str key, .float (rd n))
  | value key ns => some (.str key, numbers rd ns)
  | sound rows => some (.str (py"speed_of_sound"), .tuple (rows.map (numbers rd)))
  | other => none

end ElasticItem

end Verif.Spec
