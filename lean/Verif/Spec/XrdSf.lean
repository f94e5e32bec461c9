import Verif.Spec.PhononDos
/-
`.xrd_sf` files: structure factors for each reciprocal lattice vector.
-/
namespace Verif.Spec
open Verif

/-- A column: the real or imaginary part of a structure factor. -/
structure XrdCol where
  name : Str
  im : Bool
  deriving DecidableEq

namespace XrdCol

/-- The word at the head of the column. -/
def word (c : XrdCol) : Str := (if c.im then py"Im(" else py"Re(") ++ (c.name ++ py")")

/-- The name in the result. -/
def key (c : XrdCol) : Str := Str.lower c.name

/-- The columns come in pairs, named by distinct words. -/
def Ok (cols : List XrdCol) : Prop :=
  (∀ c ∈ cols, DosPart.Ident c.key ∧ c.key ≠ py"qvec" ∧ ∃ d ∈ cols, d.key = c.key ∧ d.im = !c.im) ∧
  (cols.map fun c => (c.key, c.im)).Nodup

end XrdCol

/-- A row: the vector and the parts. -/
structure XrdRow where
  q : List Numeral
  ns : List Numeral
  deriving DecidableEq

namespace XrdRow

/-- The line has the words of the row, and possibly others after them. -/
def Line (l : Str) (r : XrdRow) : Prop := ∃ more, Fields l (r.q.map Numeral.text ++ (r.ns.map Numeral.text ++ more))

/-- Three whole numbers and a number in range for each column. -/
def Ok (k : Nat) (r : XrdRow) : Prop := r.q.length = 3 ∧ (∀ n ∈ r.q, n.Valid ∧ n.IsInt) ∧ RowOk k r.ns

instance (k : Nat) (r : XrdRow) : Decidable (r.Ok k) := inferInstanceAs (Decidable (_ ∧ (∀ n ∈ _, _) ∧ _))

/-- The number of the row in the column of this part. -/
def part (rd : Numeral → F64) (cols : List XrdCol) (r : XrdRow) (k : Str) (im : Bool) : F64 :=
  (((cols.zip r.ns).find? fun p => p.1.key = k ∧ p.1.im = im).map fun p => rd p.2).getD ⟨0⟩

end XrdRow

/-- The result: for each structure factor its values in order, and the vectors; nothing without rows. -/
def xrdTable (rd : Numeral → F64) (cols : List XrdCol) (rows : List XrdRow) : List (Key × PyVal) :=
  if rows = [] then []
  else ((cols.map XrdCol.key).eraseDups.map fun k =>
      (Key.str k, PyVal.list (rows.map fun r => .complex (r.part rd cols k false) (r.part rd cols k true)))) ++
    [(.str (py"qvec"), .list (rows.map fun r => .tuple (r.q.map fun n => .int (intOf n))))]

end Verif.Spec
