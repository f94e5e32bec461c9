import Verif.Spec.Pspot
import Verif.Spec.LineTables
import Verif.Spec.XcDef
/-
The pseudopotentials of a `.cell` file.
-/
namespace Verif.Spec
open Verif

/-- A line of `species_pot`. -/
inductive SpecPot
  /-- One word: a library for all species. -/
  | library (w : Str)
  /-- A species and the name of a file or library. -/
  | file (spec w : Str)
  /-- A species and a definition. -/
  | definition (spec : Str) (p : PspotDef)

namespace SpecPot

/-- A word. -/
def Word (w : Str) : Prop := w ≠ [] ∧ ∀ c ∈ w, isSpace c = false

/-- The line. -/
def Line (l : Str) : SpecPot → Prop
  | library w => ∃ g, l = g ++ w ∧ Blank g
  | file spec w => ∃ g g', l = g ++ (spec ++ (g' ++ w)) ∧ Blank g ∧ Blank g' ∧ g' ≠ []
  | definition spec p => ∃ g g', l = g ++ (spec ++ (g' ++ p.text)) ∧ Blank g ∧ Blank g' ∧ g' ≠ []

/-- Well-formed: the name of a file has no vertical line in it. -/
def Ok : SpecPot → Prop
  | library w => Word w
  | file spec w => Word spec ∧ XcItem.Visible w ∧ c!"|" ∉ w
  | definition spec p => Word spec ∧ p.Ok

/-- What a line says: names as they are, definitions taken apart; what is for all species has no key. -/
def entry (rd : Numeral → F64) : SpecPot → Key × PyVal
  | library w => (.none, .str w)
  | file spec w => (.str spec, .str w)
  | definition spec p => (.str spec, p.value rd)

end SpecPot

end Verif.Spec
