import Verif.Spec.Header
/-
The unit cell of a `.castep` file.
-/
namespace Verif.Spec
open Verif

/-- A line of the block about the unit cell. -/
inductive CellLine
  /-- a row of the lattice and of the reciprocal lattice -/
  | lattice (a b c : Numeral) (u v w : Numeral)
  /-- a length and an angle -/
  | angle (a angle : Numeral)
  /-- volume or density; the second number is the power in the unit -/
  | prop (x power : Numeral)
  /-- any other line, with some number of numbers other than two and six -/
  | other (ns : List Numeral)
  deriving DecidableEq

namespace CellLine

/-- The numbers on the line. -/
def nums : CellLine → List Numeral
  | .lattice a b c u v w => [a, b, c, u, v, w]
  | .angle a x => [a, x]
  | .prop x p => [x, p]
  | .other ns => ns

/-- The line names an angle. -/
def NamesAngle (l : Str) : Prop := Occurs (py"alpha") l ∨ Occurs (py"beta") l ∨ Occurs (py"gamma") l

/-- The printed line. -/
def Line (i : CellLine) (l : Str) : Prop :=
  HasNumbers l i.nums ∧ (∀ n ∈ i.nums, n.Valid ∧ n.InRange) ∧
  match i with
  | .lattice .. => True
  | .angle .. => NamesAngle l
  | .prop .. => ¬ NamesAngle l
  | .other ns => ns.length ≠ 2 ∧ ns.length ≠ 6

/-- The rows of the lattice. -/
def real (rd : Numeral → F64) : CellLine → List PyVal
  | .lattice a b c _ _ _ => [.tuple [.float (rd a), .float (rd b), .float (rd c)]]
  | _ => []

/-- The rows of the reciprocal lattice. -/
def recip (rd : Numeral → F64) : CellLine → List PyVal
  | .lattice _ _ _ u v w => [.tuple [.float (rd u), .float (rd v), .float (rd w)]]
  | _ => []

/-- The lengths. -/
def len (rd : Numeral → F64) : CellLine → List PyVal
  | .angle a _ => [.float (rd a)]
  | _ => []

/-- The angles. -/
def ang (rd : Numeral → F64) : CellLine → List PyVal
  | .angle _ x => [.float (rd x)]
  | _ => []

/-- Volume and densities. -/
def vol (fl : Numeral → F64) : CellLine → List PyVal
  | .prop x _ => [.float (fl x)]
  | _ => []

end CellLine

/-- What the block says. -/
def unitCell (rd fl : Numeral → F64) (items : List CellLine) : PyVal :=
  .dict ([(.str (py"real_lattice"), .list (items.flatMap (CellLine.real rd))),
    (.str (py"recip_lattice"), .list (items.flatMap (CellLine.recip rd))),
    (.str (py"lattice_parameters"), .list (items.flatMap (CellLine.len rd))),
    (.str (py"cell_angles"), .list (items.flatMap (CellLine.ang rd)))] ++
    [Key.str (py"volume"), .str (py"density_amu"), .str (py"density_g")].zip (items.flatMap (CellLine.vol fl)))

end Verif.Spec
