import Verif.Spec.AtomVec
import Verif.Spec.Elastic
/-
The linear constraints of a `.cell` file.
-/
namespace Verif.Spec
open Verif

/-- A line of `ionic_constraints`: the number of the constraint, and the coefficients for an atom. -/
structure IonCons where
  num : Str
  atom : AtomVec
  deriving DecidableEq

namespace IonCons

/-- The line: number of the constraint, species, number of the atom, three coefficients. -/
def Line (l : Str) (c : IonCons) : Prop :=
  ∃ g g' g0 s, l = g ++ (c.num ++ (g' ++ (c.atom.name.text ++ (g0 ++ (c.atom.idx ++ s))))) ∧ Blank g ∧ AtomVec.Gap g' ∧
    AtomVec.Gap g0 ∧ (∀ d, s.head? = some d → isSpace d = true) ∧ Fields s [c.atom.x.text, c.atom.y.text, c.atom.z.text]

/-- Well-formed: the number has digits only. -/
def Ok (c : IonCons) : Prop := Numeral.AllDigits c.num ∧ c.num ≠ [] ∧ c.atom.Ok

instance (c : IonCons) : Decidable c.Ok := inferInstanceAs (Decidable (_ ∧ _ ∧ _))

/-- Numbered with a single digit. -/
def Single (c : IonCons) : Prop := c.num.length = 1

instance (c : IonCons) : Decidable c.Single := inferInstanceAs (Decidable (_ = _))

end IonCons

/-- What a block of constraints says: the coefficients for each atom, in the order of the lines. -/
def ionConstraints (rd : Numeral → F64) (cs : List IonCons) : Dict Key PyVal := grouped (cs.map fun c => c.atom.entry rd)

end Verif.Spec
