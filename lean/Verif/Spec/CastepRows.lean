import Verif.Spec.Table
import Verif.Spec.Atom
/-
Rows of the tables of a `.castep` file.
-/
namespace Verif.Spec
open Verif

/-- Lines that hold rows, in order, among lines to be ignored. -/
inductive Interleaved (ignore : Str → Prop) (Row : Str → α → Prop) : List Str → List α → Prop
  | nil : Interleaved ignore Row [] []
  | skip {l ls rs} : ignore l → Interleaved ignore Row ls rs → Interleaved ignore Row (l :: ls) rs
  | row {l ls r rs} : Row l r → Interleaved ignore Row ls rs → Interleaved ignore Row (l :: ls) (r :: rs)

/-- No digit in the line. -/
def NoDigit (l : Str) : Prop := ∀ c ∈ l, ¬ (48 ≤ c ∧ c ≤ 57)

instance (l : Str) : Decidable (NoDigit l) := inferInstanceAs (Decidable (∀ c ∈ l, _))

/-! ### K-points -/

/-- A k-point: its printed number, coordinates and weight. -/
structure KRow where
  idx : Str
  x : Numeral
  y : Numeral
  z : Numeral
  w : Numeral
  deriving DecidableEq

namespace KRow

/-- The line of a k-point. -/
def Line (l : Str) (r : KRow) : Prop :=
  Fields l [py"+", r.idx, r.x.text, r.y.text, r.z.text, r.w.text, py"+"]

/-- Its numbers are well-formed and in range. -/
def Ok (r : KRow) : Prop :=
  Numeral.AllDigits r.idx ∧ r.idx ≠ [] ∧ ∀ n ∈ [r.x, r.y, r.z, r.w], n.Valid ∧ n.InRange

instance (r : KRow) : Decidable r.Ok := inferInstanceAs (Decidable (_ ∧ _ ∧ ∀ n ∈ _, _))

/-- The entry of a k-point, the third coordinate given. -/
def entry (rd third : Numeral → F64) (r : KRow) : PyVal :=
  .dict [(.str (py"qpt"), .tuple [.float (rd r.x), .float (rd r.y), .float (third r.z)]), (.str (py"weight"), .float (rd r.w))]

end KRow

/-- The list of k-points. -/
def kpointList (points : List PyVal) : PyVal :=
  .dict [(.str (py"points"), .list points), (.str (py"num_kpoints"), .int points.length)]

/-! ### Bonds -/

/-- A bond: two atoms, population, spin if printed, length. -/
structure BondRow where
  a : AtomName
  i : Str
  b : AtomName
  j : Str
  population : Numeral
  spin : Option Numeral
  length : Numeral
  deriving DecidableEq

namespace BondRow

/-- The line of a bond. -/
def Line (l : Str) (r : BondRow) : Prop :=
  Fields l ([r.a.text, r.i, py"--", r.b.text, r.j, r.population.text] ++ r.spin.toList.map Numeral.text ++ [r.length.text])

/-- The numbers are well-formed and in range, the names without labels. -/
def Ok (r : BondRow) : Prop :=
  r.a.Valid ∧ r.b.Valid ∧ r.a.label = none ∧ r.b.label = none ∧
  Numeral.AllDigits r.i ∧ r.i ≠ [] ∧ Numeral.AllDigits r.j ∧ r.j ≠ [] ∧
  ∀ n ∈ [r.population, r.length] ++ r.spin.toList, n.Valid ∧ n.InRange

instance (r : BondRow) : Decidable r.Ok :=
  inferInstanceAs (Decidable (_ ∧ _ ∧ _ ∧ _ ∧ _ ∧ _ ∧ _ ∧ _ ∧ ∀ n ∈ _, _))

/-- The two atoms. -/
def key (r : BondRow) : Key :=
  .tup [.tup [.str r.a.text, .int (Numeral.nat r.i)], .tup [.str r.b.text, .int (Numeral.nat r.j)]]

/-- The values: a spin only if there is one and `keep` says so. -/
def entry (rd : Numeral → F64) (keep : Numeral → Bool) (r : BondRow) : PyVal :=
  .dict ((.str (py"population"), .float (rd r.population)) ::
    (((r.spin.filter keep).toList.map fun s => (.str (py"spin"), .float (rd s))) ++
      [(.str (py"length"), .float (rd r.length))]))

end BondRow
end Verif.Spec
