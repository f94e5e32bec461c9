import Verif.Spec.AtomTables
import Verif.Spec.Mulliken
import Verif.Spec.LineTables
/-
The tables of NMR properties of atoms in a `.castep` file.
-/
namespace Verif.Spec
open Verif

/-- The tables. -/
inductive NmrTask where
  | shielding
  | both
  | efg
  | coupling
  | hyperfine
  deriving DecidableEq

namespace NmrTask
/-- The number of the task. -/
def number : NmrTask → Nat
  | shielding => 0
  | both => 1
  | efg => 2
  | coupling => 3
  | hyperfine => 4
/-- What the parser calls it. -/
def title : NmrTask → Str
  | shielding => py"Chemical Shielding"
  | both => py"Chemical Shielding and Electric Field Gradient"
  | efg => py"Electric Field Gradient"
  | coupling => py"(An)Isotropic J-coupling"
  | hyperfine => py"Hyperfine"
/-- The columns before the asymmetry. -/
def first : NmrTask → List Str
  | shielding => [py"cs_iso", py"cs_aniso"]
  | both => [py"cs_iso", py"cs_aniso"]
  | efg => [py"cq"]
  | coupling => [py"fermi_contact", py"spin_dipolar", py"paramagnetic", py"diamagnetic", py"total"]
  | hyperfine => [py"hf_iso"]
/-- Whether there is a column with the asymmetry. -/
def hasAsym : NmrTask → Bool
  | shielding => true
  | both => true
  | efg => true
  | coupling => false
  | hyperfine => false
/-- The columns after it. -/
def second : NmrTask → List Str
  | both => [py"cq", py"eta"]
  | _ => []
end NmrTask

/-- A row: the atom and its number, the columns, and the asymmetry, if it is available. -/
structure NmrRow where
  name : AtomName
  idx : Str
  a : List Numeral
  asym : Option Numeral
  b : List Numeral
  deriving DecidableEq

namespace NmrRow

/-- The asymmetry as printed. -/
def asymText (r : NmrRow) : Str :=
  match r.asym with
  | some n => n.text
  | none => py"N/A"

/-- The words after the name of the atom. -/
def words (t : NmrTask) (r : NmrRow) : List Str :=
  r.idx :: (r.a.map Numeral.text ++ ((if t.hasAsym then [r.asymText] else []) ++ (r.b.map Numeral.text ++ [py"|"])))

/-- A row stands between bars; in a table of couplings there may be stars after the first. -/
def Line (t : NmrTask) (l : Str) (r : NmrRow) : Prop :=
  ∃ g st l' more, l = g ++ 124 :: (st ++ l') ∧ Blank g ∧ (∀ c ∈ st, c = c!"*") ∧ (t ≠ .coupling → st = []) ∧ Indented l' ∧ IonLine l' r.name (r.words t ++ more)

def Ok (t : NmrTask) (r : NmrRow) : Prop :=
  r.name.Valid ∧ Numeral.AllDigits r.idx ∧ r.idx ≠ [] ∧ r.a.length = t.first.length ∧ r.b.length = t.second.length ∧ (∀ n ∈ r.a ++ r.b, n.Valid ∧ n.InRange) ∧
    ∀ n ∈ r.asym, n.Valid ∧ n.InRange ∧ HasPoint n ∧ n.exp = none

/-- No digit after a blank. -/
def NoWordDigit (p : Str) : Prop := ∀ u c d v, p = u ++ c :: d :: v → isSpace c = true → ¬ (48 ≤ d ∧ d ≤ 57)

/-- A line with at most one number, such as a title or the line of a perturbing nucleus; the name of an atom may have digits. -/
def Other (l : Str) : Prop := ∃ p d s, l = p ++ (d ++ s) ∧ NoWordDigit p ∧ Numeral.AllDigits d ∧ NoDigit s

/-- What is reported for the atom. -/
def entry (fl : Numeral → F64) (t : NmrTask) (r : NmrRow) : Key × PyVal :=
  (.tup [.str r.name.text, .int (Numeral.nat r.idx)],
   .dict ((((t.first ++ t.second).zip (r.a ++ r.b)).map fun p => (.str p.1, .float (fl p.2))) ++
     if t.hasAsym then [(.str (py"asym"), match r.asym with | some n => .float (fl n) | none => .none)] else []))

end NmrRow
end Verif.Spec
