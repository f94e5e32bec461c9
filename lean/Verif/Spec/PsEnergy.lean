import Verif.Spec.Header
import Verif.Spec.AtomVec
import Verif.Spec.Text
/-
The report on a pseudoatom: its energy and how much of its charge is spilled.
-/
namespace Verif.Spec
open Verif

namespace PsEnergy

/-- The title: the species and its shells. -/
def Title (l spec : Str) : Prop :=
  ∃ g g' d c r, l = g ++ (py"Pseudo atomic calculation performed for " ++ (spec ++ (g' ++ d :: c :: r))) ∧ Blank g ∧ AtomVec.Gap g' ∧
    (48 ≤ d ∧ d ≤ 57) ∧ c ∈ py"spdf"

/-- A species: a capital letter and at most two small ones. -/
def Species (s : Str) : Prop := ∃ u l, s = u :: l ∧ (65 ≤ u ∧ u ≤ 90) ∧ l.length ≤ 2 ∧ ∀ c ∈ l, 97 ≤ c ∧ c ≤ 122

/-- The lines after the energy: those on charge spilling end with a percentage, others say nothing about it. -/
inductive Spills : List Str → List Numeral → Prop
  | nil : Spills [] []
  | other {l ls ns} : ¬ Occurs (py"Charge spilling") l → Spills ls ns → Spills (l :: ls) ns
  | line {l ls ms n ns} : Occurs (py"Charge spilling") l → HasNumbers l (ms ++ [n]) → (∀ m ∈ ms ++ [n], m.Valid) → n.InRange → Spills ls ns →
      Spills (l :: ls) (n :: ns)

end PsEnergy
end Verif.Spec
