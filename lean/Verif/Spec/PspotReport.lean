import Verif.Spec.PsEnergy
import Verif.Spec.LineTables
import Verif.Spec.AtomTables
import Verif.Spec.Table
/-
The report on a pseudopotential in a `.castep` file: a box whose rows give the orbitals of the reference calculation, the projectors and
some properties.
-/
namespace Verif.Spec
open Verif

/-- What a row says. -/
inductive PspotItem where
  /-- an orbital, its occupation and energy -/
  | orbital (name : Str) (occ e : Numeral)
  /-- a projector (`loc` if it has no number): angular momenta, energy, radius, scheme and norm -/
  | projector (beta : Option Str) (l : Str) (j : Option Str) (e rc : Numeral) (scheme norm : Str)
  | element (name : Str) (charge : Numeral) (theory : Str)
  | solver (words : List Str)
  | augmentation (ns : List Numeral)
  | correction (ns : List Numeral)
  | other

namespace PspotItem

/-- An orbital: a digit, a letter, up to two digits and, with spin-orbit coupling, the denominator of its angular momentum. -/
def Orbital (s : Str) : Prop :=
  ∃ d c t u, s = d :: c :: (t ++ u) ∧ (48 ≤ d ∧ d ≤ 57) ∧ c ∈ py"spdf" ∧ Numeral.AllDigits t ∧ t.length ≤ 2 ∧
    (u = [] ∨ ∃ v, u = 47 :: v ∧ Numeral.AllDigits v ∧ v ≠ [])

/-- A row of the box. -/
def Row (l inner : Str) : Prop := ∃ g g', l = g ++ 124 :: (inner ++ 124 :: g') ∧ Blank g ∧ Blank g'

/-- A row of the box that begins with neither a digit nor an `l`. -/
def Begins (l : Str) : Prop :=
  ∃ g g' c r, l = g ++ 124 :: (g' ++ c :: r) ∧ Blank g ∧ Blank g' ∧ isSpace c = false ∧ ¬ (48 ≤ c ∧ c ≤ 57) ∧ c ≠ 108

def Digits (s : Str) : Prop := Numeral.AllDigits s ∧ s ≠ []

/-- The number of a projector. -/
def betaText : Option Str → Str
  | some s => s
  | none => py"loc"

def Line : PspotItem → Str → Prop
  | orbital name occ e, l => ∃ g0 g1 g2 g3, Row l (g0 ++ (name ++ (g1 ++ (occ.text ++ (g2 ++ (e.text ++ g3)))))) ∧
      Blank g0 ∧ AtomVec.Gap g1 ∧ AtomVec.Gap g2 ∧ AtomVec.Gap g3
  | projector beta l j e rc scheme norm, line => ∃ g0 g1 g2 gj g3 g4 g5 g6,
      Row line (g0 ++ (betaText beta ++ (g1 ++ (l ++ (g2 ++ ((match j with | some j => j ++ gj | none => []) ++ (e.text ++ (g3 ++ (rc.text ++
        (g4 ++ (scheme ++ (g5 ++ (norm ++ g6))))))))))))) ∧
      Blank g0 ∧ AtomVec.Gap g1 ∧ AtomVec.Gap g2 ∧ AtomVec.Gap gj ∧ AtomVec.Gap g3 ∧ AtomVec.Gap g4 ∧ AtomVec.Gap g5 ∧ Blank g6
  | element name charge theory, l => ∃ g g0 g1 g2 r, l = g ++ 124 :: (g0 ++ (py"Element: " ++ (name ++ (g1 ++ (py"Ionic charge: " ++ (charge.text ++ (g2 ++
      (py"Level of theory: " ++ (theory ++ r))))))))) ∧ Blank g ∧ Blank g0 ∧ AtomVec.Gap g1 ∧ AtomVec.Gap g2 ∧ ∃ c r', r = c :: r' ∧ isSpace c = true
  | solver ws, l => ∃ g g0 v r, l = g ++ 124 :: (g0 ++ (py"Atomic Solver:" ++ (v ++ 124 :: r))) ∧ Blank g ∧ Blank g0 ∧
      ¬ Occurs (py"Element: ") l ∧ Fields v ws ∧ ∀ c ∈ v, isWord c = true ∨ isSpace c = true ∨ c = 45
  | augmentation ns, l => Begins l ∧ ¬ Occurs (py"Element: ") l ∧ ¬ Occurs (py"Atomic Solver:") l ∧
      Occurs (py"Augmentation charge Rinner") l ∧ HasNumbers l ns
  | correction ns, l => Begins l ∧ ¬ Occurs (py"Element: ") l ∧ ¬ Occurs (py"Atomic Solver:") l ∧
      ¬ Occurs (py"Augmentation charge Rinner") l ∧ Occurs (py"Partial core correction Rc") l ∧ HasNumbers l ns
  | other, l => (NoDigit l ∨ Begins l) ∧ ¬ Occurs (py"Element: ") l ∧ ¬ Occurs (py"Atomic Solver:") l ∧
      ¬ Occurs (py"Augmentation charge Rinner") l ∧ ¬ Occurs (py"Partial core correction Rc") l

def Ok : PspotItem → Prop
  | orbital name occ e => Orbital name ∧ (occ.Valid ∧ occ.InRange) ∧ e.Valid ∧ e.InRange
  | projector beta l j e rc scheme norm => (∀ b, beta = some b → Digits b) ∧ Digits l ∧ (∀ d, j = some d → Digits d) ∧
      (e.Valid ∧ e.InRange ∧ HasPoint e) ∧ (rc.Valid ∧ rc.InRange) ∧ ((∀ c ∈ scheme, isWord c = true) ∧ scheme ≠ []) ∧ Digits norm
  | element name charge theory => PsEnergy.Species name ∧ (charge.Valid ∧ charge.InRange ∧ HasPoint charge ∧ charge.exp = none) ∧
      (∀ c ∈ theory, isWord c = true) ∧ theory ≠ []
  | solver ws => ws ≠ []
  | augmentation ns => ∀ n ∈ ns, n.Valid ∧ n.InRange
  | correction ns => ∀ n ∈ ns, n.Valid ∧ n.InRange
  | other => True

/-- The entry for an orbital. -/
def orbitalEntry (rd : Numeral → F64) : PspotItem → Option PyVal
  | orbital name occ e => some (.dict [(.str (py"orb"), .str name), (.str (py"occupation"), .float (rd occ)), (.str (py"energy"), .float (rd e))])
  | _ => none

/-- The whole number in some digits, if there are any. -/
def wholeOr (v : PyVal) : Option Str → PyVal
  | some s => .int (Numeral.nat s)
  | none => v

/-- The entry for a projector. -/
def projectorEntry (rd : Numeral → F64) : PspotItem → Option PyVal
  | projector beta l j e rc scheme norm => some (.dict
      [(.str (py"beta"), wholeOr (.str (py"loc")) beta), (.str (py"l"), .int (Numeral.nat l)),
       (.str (py"j"), wholeOr .none j), (.str (py"e"), .float (rd e)),
       (.str (py"Rc"), .float (rd rc)), (.str (py"scheme"), .str scheme), (.str (py"norm"), .int (Numeral.nat norm))])
  | _ => none

/-- The other entries. -/
def entries (rd fl : Numeral → F64) : PspotItem → List (Key × PyVal)
  | element name charge theory => [(.str (py"element"), .str name), (.str (py"ionic_charge"), .float (fl charge)), (.str (py"level_of_theory"), .str theory)]
  | solver ws => [(.str (py"solver"), .str (Str.join (py" ") ws))]
  | augmentation ns => [(.str (py"augmentation_charge_rinner"), .tuple (ns.map fun n => .float (rd n)))]
  | correction ns => [(.str (py"partial_core_correction"), .tuple (ns.map fun n => .float (rd n)))]
  | _ => []

/-- The row with the definition of the pseudopotential, in quotes. -/
def Definition (l text : Str) : Prop :=
  (∃ g0 g1, Row l (g0 ++ 34 :: (text ++ 34 :: g1)) ∧ Blank g0 ∧ Blank g1) ∧ ¬ Occurs (py"Element: ") l ∧ ¬ Occurs (py"Atomic Solver:") l ∧
    ¬ Occurs (py"Augmentation charge Rinner") l ∧ ¬ Occurs (py"Partial core correction Rc") l

end PspotItem
end Verif.Spec
