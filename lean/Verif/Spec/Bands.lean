import Verif.Spec.Header
/-
What a band structure file says.
-/
namespace Verif.Spec
open Verif

/-- A k-point with its eigenvalues: of the one spin component, or of both. -/
structure KPoint where
  qpt : List Numeral
  weight : Numeral
  up : List Numeral
  down : Option (List Numeral)
  deriving DecidableEq

/-- The numbers of a k-point. -/
def KPoint.nums (k : KPoint) : List Numeral := k.qpt ++ [k.weight] ++ k.up ++ k.down.getD []

/-- A decimal point and no exponent. -/
def Decimal (n : Numeral) : Prop := n.Valid ∧ n.frac.isSome ∧ n.exp = none

instance (n : Numeral) : Decidable (Decimal n) := inferInstanceAs (Decidable (_ ∧ _))

/-- The numbers can be read, and the eigenvalues are plain decimals. -/
def KPoint.Ok (k : KPoint) : Prop :=
  (∀ n ∈ k.nums, n.Valid ∧ n.InRange) ∧ (∀ n ∈ k.up, Decimal n) ∧ ∀ n ∈ k.down.getD [], Decimal n

/-- A line with one number on it. -/
def NumberLine (line : Str) (n : Numeral) : Prop := Fields line [n.text]

/-- `Spin component i` -/
def SpinLine (i : Nat) (line : Str) : Prop :=
  (∃ r, line = py"Spin component" ++ r) ∧
  ∃ n : Numeral, ∃ more, Fields line (py"Spin" :: py"component" :: n.text :: more) ∧ n.Valid ∧ n.IsInt ∧ intOf n = i

/-- `K-point i x y z w` -/
def KLine (k : KPoint) (line : Str) : Prop :=
  (∃ r, line = py"K-point" ++ r) ∧ ∃ idx, Fields line (py"K-point" :: idx :: (k.qpt.map Numeral.text ++ [k.weight.text]))

/-- The lines of a k-point. -/
def KPoint.Lines (k : KPoint) (ls : List Str) : Prop :=
  ∃ head one up, KLine k head ∧ SpinLine 1 one ∧ List.Forall₂ NumberLine up k.up ∧
    match k.down with
    | none => ls = head :: one :: up
    | some d => ∃ two down, SpinLine 2 two ∧ List.Forall₂ NumberLine down d ∧ ls = head :: one :: up ++ two :: down

/-- The entry of a k-point. -/
def KPoint.entry (rd fl : Numeral → F64) (k : KPoint) : PyVal :=
  let vals (l : List Numeral) : PyVal := .tuple (l.map fun n => .float (rd n))
  .dict ([(.str (py"qpt"), vals k.qpt), (.str (py"weight"), .float (fl k.weight))] ++
    match k.down with
    | none => [(.str (py"band"), vals k.up), (.str (py"spin_comp"), .bool false)]
    | some d => [(.str (py"band_up"), vals k.up), (.str (py"band_down"), vals d), (.str (py"spin_comp"), .bool true)])

end Verif.Spec
