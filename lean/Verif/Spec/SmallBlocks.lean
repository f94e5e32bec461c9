import Verif.Spec.AtomTables
import Verif.Spec.LineTables
/-
Small tables of `.castep` files: excitation energies, samples of the electron localisation, symmetry analyses of phonons.
-/
namespace Verif.Spec
open Verif

/-- An excitation: its number, energy, error and type. -/
structure ExcRow where
  state : Numeral
  energy : Numeral
  error : Numeral
  typ : Str
  deriving DecidableEq

namespace ExcRow

def Ok (r : ExcRow) : Prop := (r.state.Valid ∧ r.state.IsInt) ∧ (r.energy.Valid ∧ r.energy.InRange) ∧ (r.error.Valid ∧ r.error.InRange) ∧
  r.typ ≠ [] ∧ ∀ c ∈ r.typ, isWord c = true

def Line (l : Str) (r : ExcRow) : Prop :=
  ∃ more, Fields l (py"+" :: r.state.text :: r.energy.text :: r.error.text :: r.typ :: py"+TDDFT" :: more)

/-- Lines between the rows: without a number directly after the border. -/
def Other (l : Str) : Prop := NoDigit l ∨ ∃ g s, l = g ++ 43 :: s ∧ Blank g ∧ NoNumberFirst s

def info (fl : Numeral → F64) (r : ExcRow) : PyVal :=
  .dict [(.str (py"energy"), .float (fl r.energy)), (.str (py"error"), .float (fl r.error)), (.str (py"type"), .str r.typ)]

end ExcRow

/-- A sample of the electron localisation function: its number and the value. -/
def ElfLine (l : Str) (r : Str × Numeral) : Prop := Indented l ∧ ∃ more, Fields l (py"ELF" :: r.1 :: r.2.text :: more)

def ElfOk (r : Str × Numeral) : Prop := (Numeral.AllDigits r.1 ∧ r.1 ≠ []) ∧ (r.2.Valid ∧ r.2.InRange) ∧ HasPoint r.2 ∧ r.2.exp = none

/-- The title of a symmetry analysis: what follows a colon, up to the next. -/
def SymTitle (l : Str) (words : List Str) : Prop :=
  ∃ a t, (l = a ++ 58 :: t ∨ ∃ b, l = a ++ 58 :: (t ++ 58 :: b)) ∧ 58 ∉ a ∧ 58 ∉ t ∧ Fields t words

/-- A row of the matrix: whole numbers if all are printed as digits only. -/
def symRow (rd : Numeral → F64) (ns : List Numeral) : PyVal :=
  if ∀ n ∈ ns, n.IsInt ∧ n.sign = none then .tuple (ns.map fun n => .int (intOf n)) else .tuple (ns.map fun n => .float (rd n))

end Verif.Spec
