import Verif.Spec.BlockFile
import Verif.Spec.Atom
import Verif.Spec.CastepMatrix
import Verif.Spec.AtomVec
/-
`.elastic` files.
-/
namespace Verif.Spec
open Verif

/-- The values under each key, keys in the order in which they first come. -/
def grouped (l : List (Key × PyVal)) : Dict Key PyVal :=
  (l.map Prod.fst).eraseDups.map fun k => (k, .list ((l.filter fun p => p.1 = k).map Prod.snd))

/-- A row of the internal strain: number and name of the atom, direction, and the components. -/
structure StrainRow where
  idx : Str
  name : AtomName
  dir : Nat
  comps : List Numeral

namespace StrainRow

/-- The printed row; before the components there are at least two blanks. -/
def Line (l : Str) (r : StrainRow) : Prop :=
  ∃ g0 g1 g2 g3 s, l = g0 ++ (r.idx ++ (g1 ++ (r.name.text ++ (g2 ++ r.dir :: (g3 ++ s))))) ∧ Blank g0 ∧
    (Blank g1 ∧ g1 ≠ []) ∧ (Blank g2 ∧ g2 ≠ []) ∧ (Blank g3 ∧ 2 ≤ g3.length) ∧ Fields s (r.comps.map Numeral.text)

/-- A number, a name without label and without digits, one of the three directions, six components. -/
def Ok (r : StrainRow) : Prop :=
  Numeral.AllDigits r.idx ∧ r.idx ≠ [] ∧ r.name.Valid ∧ r.name.label = none ∧ NoDigit r.name.text ∧ (r.dir = c!"X" ∨ r.dir = c!"Y" ∨ r.dir = c!"Z") ∧
    r.comps.length = 6 ∧ NumsOk r.comps

/-- Name and number of the atom. -/
def ion (r : StrainRow) : Key := .tup [.str r.name.text, .int (Numeral.nat r.idx)]

/-- The number of the atom as a numeral. -/
def num (r : StrainRow) : Numeral := ⟨none, r.idx, none, none⟩

end StrainRow

/-- A part of an `.elastic` file. -/
inductive ElPart
  | header (items : List HeadItem)
  /-- a matrix with its words and its unit -/
  | matrix (words : List Str) (unit : Option Str) (rows : List (List Numeral))
  | strain (words : List Str) (unit : Option Str) (rows : List StrainRow)
  /-- a line between blocks -/
  | other

namespace ElPart

/-- The first line of a block: `BEGIN`, a name, and a unit in round brackets if there is one. -/
def Title (words : List Str) (unit : Option Str) (l : Str) : Prop :=
  ∃ g name, Blank g ∧ name ≠ [] ∧ c!"(" ∉ name ∧ Fields (name.map fun c => if isAlnum c then c else 32) words ∧
    match unit with
    | none => l = g ++ (py"BEGIN " ++ name)
    | some u => u ≠ [] ∧ c!")" ∉ u ∧ ∃ tail, l = g ++ (py"BEGIN " ++ (name ++ c!"(" :: (u ++ c!")" :: tail)))

/-- The key of a block: its words, without the names of the components. -/
def key (words : List Str) : Str :=
  let k := Str.join (py"_") (words.map Str.lower)
  let cols := py"_xx_yy_zz_yz_zx_xy"
  if cols <:+ k then k.take (k.length - cols.length) else k

/-- A row of a matrix. -/
def Row (l : Str) (ns : List Numeral) : Prop := HasNumbers l ns ∧ ns ≠ []

/-- The lines of a part. -/
def Lines : ElPart → List Str → Prop
  | .header items, ls => HeaderLines [] items ls
  | .matrix words unit rows, ls => StartsNone [py"BEGIN header", py"BEGIN Internal Strain"] ls ∧ ∃ inner first last,
      ls = first :: (inner ++ [last]) ∧ Title words unit first ∧ (∀ l ∈ inner, ¬ Occurs (py"END") l) ∧ Occurs (py"END") last ∧
      Interleaved NoDigit Row inner rows ∧ NoDigit last
  | .strain words unit rows, ls => StartsNone [py"BEGIN header"] ls ∧ ∃ inner first last,
      ls = first :: (inner ++ [last]) ∧ Occurs (py"BEGIN Internal Strain") first ∧ Title words unit first ∧ (∀ l ∈ inner, ¬ Occurs (py"END") l) ∧
      Occurs (py"END") last ∧ List.Forall₂ StrainRow.Line inner rows
  | .other, ls => StartsNone [py"BEGIN"] ls ∧ ls.length = 1

/-- The numbers are well-formed and in range. -/
def Ok : ElPart → Prop
  | .header items => (∀ i ∈ items, ∀ n ∈ i.nums, n.Valid ∧ n.InRange) ∧ ∃ nums, HeadItem.note true nums ∈ items
  | .matrix _ _ rows => ∀ r ∈ rows, NumsOk r
  | .strain _ _ rows => ∀ r ∈ rows, r.Ok ∧ r.num.InRange
  | .other => True

/-- A unit as a value. -/
def unitVal : Option Str → PyVal
  | none => .none
  | some u => .str u

/-- Numbers as a value. -/
def tuple (rd : Numeral → F64) (ns : List Numeral) : PyVal := .tuple (ns.map fun n => .float (rd n))

/-- What a part says: the header, the rows of a matrix with its unit, and for every atom its rows of the internal strain, `row` being what is reported for one
of them. -/
def put (rd : Numeral → F64) (row : StrainRow → List Numeral) (d : Dict Key PyVal) : ElPart → Dict Key PyVal
  | .header items => (merge d (headerOf [] rd items)).erase (.str [])
  | .matrix words unit rows => d.set (.str (key words)) (.dict [(.str (py"units"), unitVal unit), (.str (py"val"), .tuple (rows.map (tuple rd)))])
  | .strain words unit rows => d.set (.str (key words))
      (.dict ((.str (py"units"), unitVal unit) :: grouped (rows.map fun r => (r.ion, tuple rd (row r)))))
  | .other => d

end ElPart
end Verif.Spec
