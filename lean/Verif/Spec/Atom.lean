import Verif.Spec.Number
import Verif.Spec.Text
/-
What an atom is called in an output file.
-/
namespace Verif.Spec
open Verif

/-- A species as CASTEP prints it: an element symbol, optionally `:` and a custom name, optionally a
label in square brackets (with blanks before it). -/
structure AtomName where
  up : Nat
  low : Str
  custom : Option Str
  label : Option (Str × Str)
  deriving DecidableEq, Repr

namespace AtomName

/-- The part after the element symbol. -/
def customText : Option Str → Str
  | none => []
  | some s => c!":" :: s

/-- The label in its brackets. -/
def labelText : Option (Str × Str) → Str
  | none => []
  | some (g, s) => g ++ c!"[" :: (s ++ [c!"]"])

/-- The printed text. -/
def text (a : AtomName) : Str := a.up :: a.low ++ customText a.custom ++ labelText a.label

/-- Well-formed: a capital letter and at most two small ones; the custom name is a nonempty word; the
label is not empty and contains no closing bracket. -/
def Valid (a : AtomName) : Prop :=
  (65 ≤ a.up ∧ a.up ≤ 90) ∧ (a.low.length ≤ 2 ∧ ∀ c ∈ a.low, 97 ≤ c ∧ c ≤ 122) ∧
  (∀ s ∈ a.custom, s ≠ [] ∧ ∀ c ∈ s, isWord c = true) ∧
  ∀ p ∈ a.label, Blank p.1 ∧ p.2 ≠ [] ∧ c!"]" ∉ p.2

instance (s : Str) : Decidable (Blank s) := inferInstanceAs (Decidable (∀ c ∈ s, _))

instance (a : AtomName) : Decidable a.Valid :=
  inferInstanceAs (Decidable ((65 ≤ a.up ∧ a.up ≤ 90) ∧ (a.low.length ≤ 2 ∧ ∀ c ∈ a.low, 97 ≤ c ∧ c ≤ 122) ∧
    (∀ s ∈ a.custom, s ≠ [] ∧ ∀ c ∈ s, isWord c = true) ∧
    ∀ p ∈ a.label, Blank p.1 ∧ p.2 ≠ [] ∧ c!"]" ∉ p.2))

end AtomName
end Verif.Spec
