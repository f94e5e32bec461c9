import Verif.Spec.Coord
import Verif.Spec.Atom
import Verif.Spec.Setting
import Verif.Spec.Table
/-
Blocks of `.cell` files that have no parser of their own, such as `lattice_cart` and `species_mass`.
-/
namespace Verif.Spec
open Verif

/-- The blocks with a parser of their own. -/
def ownBlocks : List Str :=
  [py"devel_code", py"ionic_constraints", py"nonlinear_constraints", py"positions_frac", py"positions_frac_intermediate",
   py"positions_frac_product", py"positions_abs", py"positions_abs_intermediate", py"positions_abs_product",
   py"positions_aspectral_intermediate", py"positions_aspectral_product", py"species_pot", py"sedc_custom_params", py"hubbard_u",
   py"symmetry_ops", py"xc_definition"]

/-- A line with the name of a unit: a single word without digits. -/
def UnitsLine (l w : Str) : Prop :=
  ∃ g, l = g ++ w ∧ Blank g ∧ w ≠ [] ∧ (∀ c ∈ w, isSpace c = false ∧ isDigit c = false) ∧ w.head? ≠ some (c!"%")

/-- The lines at the start of a block that name the units. -/
inductive UnitsPart : List Str → Option Str → Prop
  | none : UnitsPart [] none
  | some {l w} : UnitsLine l w → UnitsPart [l] (some w)

/-- The units in the result. -/
def unitsEntry (u : Option Str) : List (Key × PyVal) := u.toList.map fun w => (Key.str (py"units"), PyVal.str w)

/-- A property of a species. -/
structure SpecProp where
  spec : AtomName
  value : Str
  deriving DecidableEq

/-- The line of a property: the species and the value. -/
def SpecProp.Line (l : Str) (p : SpecProp) : Prop :=
  ∃ g g', l = g ++ (p.spec.text ++ (g' ++ p.value)) ∧ Blank g ∧ Blank g' ∧ g' ≠ []

/-- Well-formed: the species has no label, the value is one line without blanks at its ends and is not in brackets. -/
def SpecProp.Ok (p : SpecProp) : Prop :=
  p.spec.Valid ∧ p.spec.label = none ∧ p.value ≠ [] ∧ (∀ c, p.value.head? = some c → isSpace c = false ∧ c ≠ c!"[") ∧
    (∀ c, p.value.getLast? = some c → isSpace c = false) ∧ c!"\n" ∉ p.value

/-- What the value says: a whole number, another number, a logical or a text. -/
inductive PropValue : Str → PyVal → Prop
  | int {n : Numeral} {i : ℤ} : n.Valid → n.IsInt → (i : ℚ) = n.value → PropValue n.text (.int i)
  | float {n : Numeral} {x} : n.Valid → ¬ n.IsInt → F64.Nearest n.value x → PropValue n.text (.float x)
  | text {t} : PlainText t → PropValue t (textValue t)

/-- A value that is a number in range or a text. -/
def PropText (v : Str) : Prop := (∃ n : Numeral, v = n.text ∧ n.Valid ∧ n.InRange) ∨ PlainText v

end Verif.Spec
