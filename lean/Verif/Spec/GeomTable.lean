import Verif.Spec.AtomTables
import Verif.Spec.LineTables
/-
The tables of a geometry optimisation in a `.castep` file.
-/
namespace Verif.Spec
open Verif

/-- A row: of the line search, or of the criteria of convergence. -/
inductive GeomRow
  | step (words : List Str) (lambda fdelta enthalpy : Numeral)
  | param (name : Str) (value tolerance : Numeral) (ok : Bool)

namespace GeomRow

/-- The line, with cells between bars. -/
def Line : Str → GeomRow → Prop
  | l, step words x y z => ∃ g0 g1 raw g2 g3 g4 g5 g6 g7 rest,
      l = g0 ++ c!"|" :: (g1 ++ (raw ++ c!"|" :: (g2 ++ (x.text ++ (g3 ++ c!"|" :: (g4 ++ (y.text ++ (g5 ++ c!"|" :: (g6 ++ (z.text ++ (g7 ++ c!"|" :: rest))))))))))) ∧
      (∀ g ∈ [g0, g1, g2, g3, g4, g5, g6, g7], Blank g) ∧ c!"|" ∉ raw ∧ (∃ c s, raw = c :: s ∧ isSpace c = false) ∧ Fields raw words
  | l, param name x y ok => ∃ g0 g1 raw g2 g3 g4 g5 g6 g7 units g8 g9 g10 rest,
      l = g0 ++ c!"|" :: (g1 ++ (raw ++ (g2 ++ c!"|" :: (g3 ++ (x.text ++ (g4 ++ c!"|" :: (g5 ++ (y.text ++ (g6 ++ c!"|" :: (g7 ++ (units ++ (g8 ++ c!"|" ::
        (g9 ++ ((if ok then py"Yes" else py"No") ++ (g10 ++ c!"|" :: rest))))))))))))))) ∧
      (∀ g ∈ [g0, g1, g2, g3, g4, g5, g6, g7, g8, g9, g10], Blank g) ∧ g2 ≠ [] ∧ g8 ≠ [] ∧
      raw ≠ [] ∧ (∀ c ∈ raw, isSpace c = false) ∧ units ≠ [] ∧ (∀ c ∈ units, isSpace c = false) ∧ KeyName raw name ∧
      ((c!"|" ∉ raw ∧ c!"|" ∉ units ∧ NoDigit units) ∨ ∃ a b, raw = c!"|" :: (a ++ c!"|" :: b) ∧ c!"|" ∉ a ∧ NoDigit a)

/-- The numbers. -/
def nums : GeomRow → List Numeral
  | step _ x y z => [x, y, z]
  | param _ x y _ => [x, y]

/-- The key in the result. -/
def key : GeomRow → Key
  | step words .. => .str (Str.join (py" ") words)
  | param name .. => .str name

/-- What is reported under it. -/
def info (fl : Numeral → F64) : GeomRow → PyVal
  | step _ x y z => .dict [(.str (py"lambda"), .float (fl x)), (.str (py"fdelta"), .float (fl y)), (.str (py"enthalpy"), .float (fl z))]
  | param _ x y ok => .dict [(.str (py"value"), .float (fl x)), (.str (py"tolerance"), .float (fl y)), (.str (py"converged"), .bool ok)]

end GeomRow

/-! ### Estimates of memory -/

/-- A row of the estimate: what it is about, memory and disk. -/
structure MemRow where
  name : Str
  memory : Numeral
  disk : Numeral

namespace MemRow

/-- The line: after a bar a text of letters and spaces, and two numbers of megabytes. -/
def Line (l : Str) (r : MemRow) : Prop := ∃ g0 raw g rest,
  l = g0 ++ c!"|" :: (raw ++ c!" " :: (r.memory.text ++ (py" MB" ++ (g ++ (r.disk.text ++ (py" MB" ++ rest)))))) ∧
    Blank g0 ∧ raw ≠ [] ∧ (∀ c ∈ raw, isAlpha c = true ∨ c = c!" ") ∧ KeyName raw r.name ∧ Blank g ∧ g ≠ []

/-- A row that is lost: the text after the bar has another character, such as the full stop of `Approx. total`. -/
def Lost (l : Str) : Prop := ∃ g0 a c b, l = g0 ++ c!"|" :: (a ++ c :: b) ∧ Blank g0 ∧ (∀ x ∈ a, isAlpha x = true ∨ x = c!" ") ∧
  isAlpha c = false ∧ isSpace c = false ∧ isSpace (a.getLastD 0) = false

/-- Lines of which nothing is reported. -/
def Other (l : Str) : Prop := NoDigit l ∨ Lost l

/-- The numbers. -/
def nums (r : MemRow) : List Numeral := [r.memory, r.disk]

/-- What is reported. -/
def info (fl : Numeral → F64) (r : MemRow) : PyVal := .dict [(.str (py"memory"), .float (fl r.memory)), (.str (py"disk"), .float (fl r.disk))]

end MemRow

/-! ### Lines of a geometry optimisation -/

/-- The minimisers. -/
def MINIMISERS : List Str := [py"BFGS", py"LBFGS", py"FIRE", py"TPSD", py"DMD", py"DI"]

/-- The first line of a table. -/
def TableTitle (l : Str) : Prop := ∃ a o m e, l = a ++ (py"<--" ++ (o ++ (c!" " :: (m ++ e)))) ∧ (o = [] ∨ o = py" min") ∧ m ∈ MINIMISERS ∧ (e = [] ∨ e = [10])

/-- A ruler of a table: dashes under each of four cells, at least. -/
def TableRule (l : Str) : Prop := ∃ a d1 d2 d3 d4 b,
  l = a ++ c!"+" :: (d1 ++ c!"+" :: (d2 ++ c!"+" :: (d3 ++ c!"+" :: (d4 ++ c!"+" :: b)))) ∧ ∀ d ∈ [d1, d2, d3, d4], d ≠ [] ∧ ∀ c ∈ d, c = c!"-"

/-- The first line of an iteration. -/
def IterTitle (l : Str) : Prop := ∃ a m g d g' b, l = a ++ (py"Starting " ++ (m ++ (py" iteration" ++ (g ++ (d ++ (g' ++ (py"..." ++ b))))))) ∧
  m ∈ MINIMISERS ∧ Blank g ∧ Blank g' ∧ d ≠ [] ∧ ∀ c ∈ d, isDigit c = true

/-- A ruler between iterations. -/
def IterRule (l : Str) : Prop := ∃ s e, l = s ++ e ∧ s ≠ [] ∧ (∀ c ∈ s, c = c!"=") ∧ (e = [] ∨ e = [10])

/-- Lines that end an iteration. -/
def IterEnd (l : Str) : Prop := IterRule l ∨ ∃ g g' m g'', l = g ++ (py"Finished" ++ (g' ++ (m ++ g''))) ∧ Blank g ∧ Blank g' ∧ g' ≠ [] ∧ m ∈ MINIMISERS ∧ Blank g''

/-- Other lines of an iteration. -/
def IterPass (l : Str) : Prop := ¬ IterRule l ∧ ¬ Occurs (py"Finished") l

/-- The line with the enthalpy after an iteration. -/
def EnthalpyLine (l : Str) : Prop := ∃ a m g d g' b, l = a ++ (m ++ (py": finished iteration" ++ (g ++ (d ++ (g' ++ (py"with enthalpy" ++ b)))))) ∧
  m ∈ MINIMISERS ∧ Blank g ∧ Blank g' ∧ d ≠ [] ∧ ∀ c ∈ d, isDigit c = true

/-- The line with a trial step. -/
def TrialLine (l : Str) (n : Numeral) : Prop := ∃ a g b, l = a ++ (py"trial guess (lambda=" ++ (g ++ (n.text ++ c!")" :: b))) ∧ Blank g ∧
  ¬ Occurs (py"trial guess (lambda=") (a ++ py"trial guess (lambda")

/-- The title of an estimate of memory. -/
def MemTitle (l : Str) : Prop := ∃ g s g1 w s' g2, l = g ++ (s ++ (g1 ++ (py"MEMORY AND SCRATCH" ++ (w ++ (s' ++ g2))))) ∧ Blank g ∧ Blank g1 ∧ Blank g2 ∧
  (∀ u ∈ [s, s'], u ≠ [] ∧ ∀ c ∈ u, c = c!"+" ∨ c = c!"-") ∧ w ≠ [] ∧ ∀ c ∈ w, isWord c = true ∨ isSpace c = true

/-- The end of an estimate of memory. -/
def MemEnd (l : Str) : Prop := ∃ g s g', l = g ++ (s ++ g') ∧ Blank g ∧ Blank g' ∧ s ≠ [] ∧ ∀ c ∈ s, c = c!"+" ∨ c = c!"-"

end Verif.Spec
