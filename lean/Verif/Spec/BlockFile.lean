import Verif.Spec.Header
import Verif.Spec.Labelled
/-
Output files that consist of a header and blocks with a first and a last line.
-/
namespace Verif.Spec
open Verif

/-- Lines from one naming `b` to the first one after it naming `e`, and the lines between them. -/
def Enclosed (b e : Str) (ls inner : List Str) : Prop :=
  ∃ first last, ls = first :: (inner ++ [last]) ∧ Occurs b first ∧ (∀ l ∈ inner, ¬ Occurs e l) ∧ Occurs e last

/-- The lines of a header, its first and last line among them. -/
def HeaderLines (opt : Str) (items : List HeadItem) (ls : List Str) : Prop :=
  (∃ inner, Enclosed (py"BEGIN header") (py"END header") ls inner) ∧
  ∃ parts, List.Forall₂ (HeadItem.Lines opt) items parts ∧ ls = parts.flatten

/-- The lines start none of the blocks named. -/
def StartsNone (bs : List Str) (ls : List Str) : Prop := ∀ b ∈ bs, ∀ l ∈ ls.head?, ¬ Occurs b l

/-- The entries of `e` put into `d`. -/
def merge (d e : Dict Key PyVal) : Dict Key PyVal := e.foldl (fun d kv => d.set kv.1 kv.2) d

/-- A table added to the tables of this name; a table without rows is left out. -/
def addTable (d : Dict Key PyVal) (k : Str) (t : List (Key × PyVal)) : Dict Key PyVal :=
  if t = [] then d
  else match d.get? (.str k) with
    | some (.list l) => d.set (.str k) (.list (l ++ [.dict t]))
    | _ => d.set (.str k) (.list [.dict t])

/-! ### Electric field response -/

/-- A part of an `.efield` file. -/
inductive EfieldPart
  | header (items : List HeadItem)
  /-- the oscillator strengths: number of the mode, frequency and six components -/
  | osc (rows : List (List Numeral))
  /-- the permittivity: frequency and six components -/
  | perm (rows : List (List Numeral))
  /-- a line between blocks -/
  | other

namespace EfieldPart

/-- The names of the columns. -/
def cols : List Str := [py"freq", py"xx", py"yy", py"zz", py"yz", py"xz", py"xy"]

/-- The lines of a part. -/
def Lines : EfieldPart → List Str → Prop
  | .header items, ls => HeaderLines (py"Oscillator Q") items ls
  | .osc rows, ls => StartsNone [py"BEGIN header"] ls ∧ ∃ inner,
      Enclosed (py"BEGIN Oscillator Strengths") (py"END Oscillator Strengths") ls inner ∧
      List.Forall₂ (fun l ns => ∃ more, Fields l (ns.map Numeral.text ++ more)) inner rows
  | .perm rows, ls => StartsNone [py"BEGIN header", py"BEGIN Oscillator Strengths"] ls ∧ ∃ inner,
      Enclosed (py"BEGIN permittivity") (py"END permittivity") ls inner ∧ List.Forall₂ NumLine inner rows
  | .other, ls => StartsNone [py"BEGIN header", py"BEGIN Oscillator Strengths", py"BEGIN permittivity"] ls ∧ ls.length = 1

/-- The numbers are well-formed and in range; the header counts nothing under the names of the tables. -/
def Ok : EfieldPart → Prop
  | .header items => (∀ i ∈ items, ∀ n ∈ i.nums, n.Valid ∧ n.InRange) ∧ ∀ i ∈ items, ∀ key n, i = .count key n →
      Str.join (py" ") key ≠ py"oscillator_strengths" ∧ Str.join (py" ") key ≠ py"permittivity"
  | .osc rows => ∀ r ∈ rows, RowOk 8 r ∧ ∀ n ∈ r.head?, n.IsInt
  | .perm rows => ∀ r ∈ rows, RowOk 7 r
  | .other => True

/-- The numbers read. -/
def nums : EfieldPart → List Numeral
  | .header items => items.flatMap HeadItem.nums
  | .osc rows => rows.flatten
  | .perm rows => rows.flatten
  | .other => []

/-- What a part adds to the result: the rows chosen by `keep`, with the components of oscillators chosen by `osc`. -/
def put (rd : Numeral → F64) (keep : List (List Numeral) → List (List Numeral)) (oscOf : List Numeral → List Numeral)
    (d : Dict Key PyVal) : EfieldPart → Dict Key PyVal
  | .header items => merge d (headerOf (py"Oscillator Q") rd items)
  | .osc rows => addTable d (py"oscillator_strengths") (columnTable rd cols ((keep rows).map oscOf))
  | .perm rows => addTable d (py"permittivity") (columnTable rd cols (keep rows))
  | .other => d

end EfieldPart
end Verif.Spec
