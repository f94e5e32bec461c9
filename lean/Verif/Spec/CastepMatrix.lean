import Verif.Spec.CastepRows
import Mathlib.Data.Matrix.Mul
import Mathlib.LinearAlgebra.Matrix.Trace
/-
Matrices and tensors in a `.castep` file.
-/
namespace Verif.Spec
open Verif

/-- The numbers printed in a line, with other text around them. -/
def HoldsNumbers (line : Str) (ns : List Numeral) : Prop :=
  ∃ (lead : Str) (l : List (Numeral × Str)), line = lead ++ l.flatMap (fun p => p.1.text ++ p.2) ∧ Leading lead ∧
    ns = l.map Prod.fst ∧ (∀ p ∈ l.dropLast, Between p.2) ∧ ∀ p, l.getLast? = some p → Trailing p.2

/-- The numbers are well-formed and in range. -/
def NumsOk (ns : List Numeral) : Prop := ∀ n ∈ ns, n.Valid ∧ n.InRange

instance (ns : List Numeral) : Decidable (NumsOk ns) := inferInstanceAs (Decidable (∀ n ∈ ns, _))

/-- A tuple of doubles. -/
def floats (xs : List F64) : PyVal := .tuple (xs.map .float)

/-! ### Stresses -/

/-- A line that is not a row of a stress tensor. -/
def NoStress (l : Str) : Prop := ¬ Occurs (py"*  x") l ∧ ¬ Occurs (py"*  y") l ∧ ¬ Occurs (py"*  z") l

/-- The lines of a stress tensor after its title. -/
structure StressLines (lines : List Str) (xx xy xz yx yy yz zx zy zz : Numeral) : Prop where
  holds : ∃ before lx between ly after lz rest,
    lines = before ++ lx :: (between ++ ly :: (after ++ lz :: rest)) ∧
    (∀ l ∈ before ++ between ++ after ++ rest, NoStress l) ∧
    Occurs (py"*  x") lx ∧ HoldsNumbers lx [xx, xy, xz] ∧
    ¬ Occurs (py"*  x") ly ∧ Occurs (py"*  y") ly ∧ HoldsNumbers ly [yx, yy, yz] ∧
    ¬ Occurs (py"*  x") lz ∧ ¬ Occurs (py"*  y") lz ∧ Occurs (py"*  z") lz ∧ HoldsNumbers lz [zx, zy, zz]

/-! ### Tables of three or six columns -/

/-- A line that is not a row: it has neither three nor six numbers. -/
def NotRow (l : Str) : Prop := ∃ ns, NumsOk ns ∧ HoldsNumbers l ns ∧ ns.length ≠ 3 ∧ ns.length ≠ 6

/-! ### Dynamical matrices -/

/-- A row of a dynamical matrix: number of the ion, number of the direction, entries. -/
def DynRow (l : Str) (r : Numeral × Numeral × List Numeral) : Prop := HoldsNumbers l (r.1 :: r.2.1 :: r.2.2)

/-- The matrix. -/
def complexMatrix (rd : Numeral → F64) (re im : List (List Numeral)) : PyVal :=
  .tuple ((re.zip im).map fun p => .tuple ((p.1.zip p.2).map fun q => .complex (rd q.1) (rd q.2)))

/-! ### Raman tensors -/

/-- A mode: its tensor and depolarisation ratio. -/
structure RamanMode where
  tensor : Fin 3 → Fin 3 → Numeral
  depol : Numeral

namespace RamanMode

/-- A row of the tensor. -/
def row (m : RamanMode) (i : Fin 3) : List Numeral := [m.tensor i 0, m.tensor i 1, m.tensor i 2]

/-- All numbers of a mode. -/
def nums (m : RamanMode) : List Numeral := m.row 0 ++ m.row 1 ++ m.row 2 ++ [m.depol]

/-- The line that ends a tensor. -/
def End (l : Str) : Prop := ∃ g t, l = py" +" ++ g ++ (c!"+") :: t ∧ Blank g ∧ g ≠ []

/-- The line is not the first line of a mode. -/
def Body (l : Str) : Prop := ¬ Occurs (py"Mode number") l

/-- The lines of modes one after the other. -/
inductive Lines : List Str → List RamanMode → Prop
  | nil : Lines [] []
  | skip {l ls ms} : Body l → NoDigit l → ¬ End l → Lines ls ms → Lines (l :: ls) ms
  | mode {title a b c e ls m ms} : Occurs (py"Mode number") title → Body a → HoldsNumbers a (m.row 0 ++ [m.depol]) →
      Body b → HoldsNumbers b (m.row 1) → Body c → HoldsNumbers c (m.row 2) → Body e → NoDigit e → End e →
      Lines ls ms → Lines (title :: a :: b :: c :: e :: ls) (m :: ms)

/-- What is returned for a mode. -/
def entry (rd fl : Numeral → F64) (trace ii : (Fin 3 → Fin 3 → F64) → F64) (m : RamanMode) : PyVal :=
  .dict [(.str (py"tensor"), .tuple [floats ((m.row 0).map rd), floats ((m.row 1).map rd), floats ((m.row 2).map rd)]),
    (.str (py"depolarisation"), .float (fl m.depol)),
    (.str (py"trace"), .float (trace fun i j => rd (m.tensor i j))), (.str (py"ii"), .float (ii fun i j => rd (m.tensor i j)))]

end RamanMode
end Verif.Spec
