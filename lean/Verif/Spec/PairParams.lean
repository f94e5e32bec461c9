import Verif.Spec.CastepRows
import Verif.Spec.AtomTables
import Verif.Spec.LineTables
import Verif.Spec.Mulliken
/-
Parameters of pair potentials in a `.castep` file.
-/
namespace Verif.Spec
open Verif

/-- A parameter of a potential: the tag of the block, the name of the parameter, its value and unit, and the name of the potential. -/
structure PairRow where
  tag : Option Str
  label : Str
  value : Numeral
  unit : Option Str
  typ : Str

namespace PairRow

/-- The words after the name. -/
def words (r : PairRow) : List Str := r.value.text :: (r.unit.toList ++ [py"*", py"<--", r.typ])

/-- The start of a block of terms of two or three bodies. -/
def Title (l : Str) : Prop := Occurs (py"Two Body") l ∨ Occurs (py"Three Body") l

/-- The line of a parameter. -/
def Line (l : Str) (r : PairRow) : Prop :=
  ∃ g0 g1 s more, l = r.tag.getD [] ++ (g0 ++ c!"*" :: (g1 ++ (r.label ++ s))) ∧ Blank g0 ∧ Blank g1 ∧ (∀ c, s.head? = some c → isSpace c = true) ∧ Fields s (r.words ++ more) ∧ ¬ Title l

/-- A line that is neither a parameter nor a title. -/
def Other (l : Str) : Prop := ¬ Occurs (py"<--") l ∧ ¬ Title l

def Word (s : Str) : Prop := s ≠ [] ∧ ∀ c ∈ s, isWord c = true

instance (s : Str) : Decidable (Word s) := inferInstanceAs (Decidable (_ ∧ _))

def Ok (r : PairRow) : Prop :=
  (∀ t ∈ r.tag, Word t) ∧ Word r.label ∧ Word r.typ ∧ (r.value.Valid ∧ r.value.InRange) ∧ ∀ u ∈ r.unit, u ≠ [] ∧ ∀ c ∈ u, isWord c = true ∨ c ∈ py"^/*"

/-- The name of the potential, with the tag. -/
def potential (r : PairRow) : Str :=
  match r.tag with
  | some t => t ++ py"_" ++ r.typ
  | none => r.typ

/-- The value, under the potential and the parameter. -/
def entry (rd : Numeral → F64) (r : PairRow) : Key × Key × PyVal := (.str r.potential, .str r.label, .float (rd r.value))

end PairRow
end Verif.Spec
