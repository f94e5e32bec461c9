import Verif.Spec.LineTables
/-
The report on the dispersion correction in a `.castep` file.
-/
namespace Verif.Spec
open Verif

/-- What a line says: a parameter, something else with a name, the coefficients of a species. -/
inductive DftdItem where
  | param (key : Str) (n : Numeral)
  | entry (key value : Str)
  | species (name : AtomName) (c6 r0 : Numeral)
  | other

namespace DftdItem

/-- A name, a colon and words, with no other colon. -/
def Named (l name : Str) (ws : List Str) : Prop := ∃ v, l = name ++ 58 :: v ∧ 58 ∉ name ∧ 58 ∉ v ∧ Fields v ws

/-- No blank is followed by a digit, a sign or a point. -/
def NoNumberWord (l : Str) : Prop := ∀ p ∈ l.zip (l.drop 1), isSpace p.1 = true → ¬ (48 ≤ p.2 ∧ p.2 ≤ 57) ∧ p.2 ∉ py"+-."

instance (l : Str) : Decidable (NoNumberWord l) := inferInstanceAs (Decidable (∀ p ∈ _, _))

def Line : DftdItem → Str → Prop
  | param key n, l => ∃ name ws, Named l name (n.text :: ws) ∧ Occurs (py"Parameter") name ∧ KeyName name key
  | entry key value, l => ∃ name ws, Named l name ws ∧ ¬ Occurs (py"Parameter") name ∧ KeyName name key ∧ value = Str.join (py" ") ws
  | species name c6 r0, l => 58 ∉ l ∧ ∃ g l' more, l = g ++ 120 :: l' ∧ Blank g ∧ (∃ c s, l' = c :: s ∧ isSpace c = true) ∧
      IonLine l' name (c6.text :: r0.text :: more)
  | other, l => l.count 58 ≠ 1 ∧ (NoDigit l ∨ NoNumberWord l)

def Ok : DftdItem → Prop
  | param key n => key ≠ py"species" ∧ n.Valid ∧ n.InRange
  | entry key _ => key ≠ py"species"
  | species name c6 r0 => name.Valid ∧ (c6.Valid ∧ c6.InRange) ∧ r0.Valid ∧ r0.InRange
  | other => True

/-- What is said about the correction as a whole, with the reading of numbers among texts. -/
def general (rd : Numeral → F64) : DftdItem → Option (Key × PyVal)
  | param key n => some (.str key, .float (rd n))
  | entry key value => some (.str key, .str value)
  | _ => none

/-- What is said about a species. -/
def coefficients (fl : Numeral → F64) : DftdItem → Option (Key × PyVal)
  | species name c6 r0 => some (.str name.text, .dict [(.str (py"c6"), .float (fl c6)), (.str (py"r0"), .float (fl r0))])
  | _ => none

end DftdItem

end Verif.Spec
