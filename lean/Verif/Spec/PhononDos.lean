import Verif.Spec.BlockFile
/-
Files with a phonon density of states.
-/
namespace Verif.Spec
open Verif

/-- The gradients at a q-point: number, position, weight, and for each branch its number, frequency and gradient. -/
structure QGrad where
  idx : Numeral
  q : List Numeral
  weight : Numeral
  rows : List (List Numeral)
  deriving DecidableEq

namespace QGrad

/-- The line of the q-point. -/
def Line (l : Str) (g : QGrad) : Prop :=
  ∃ b s more, l = b ++ (py"q-pt=" ++ s) ∧ Blank b ∧ b ≠ [] ∧
    Fields s (g.idx.text :: (g.q.map Numeral.text ++ (g.weight.text :: more)))

/-- The line of the q-point and those of its branches, with lines without digits among the latter. -/
def Lines (ls : List Str) (g : QGrad) : Prop :=
  ∃ l rows, ls = l :: rows ∧ g.Line l ∧ Interleaved NoDigit NumLine rows g.rows

/-- Well-formed numbers. -/
def Ok (g : QGrad) : Prop :=
  g.idx.Valid ∧ g.idx.IsInt ∧ g.q.length = 3 ∧ (∀ n ∈ g.weight :: g.q, n.Valid ∧ n.InRange) ∧
  ∀ r ∈ g.rows, RowOk 3 r ∧ ∀ n ∈ r.head?, n.IsInt

instance (g : QGrad) : Decidable g.Ok := inferInstanceAs (Decidable (_ ∧ _ ∧ _ ∧ (∀ n ∈ _, _) ∧ ∀ r ∈ _, _ ∧ ∀ n ∈ _, _))

/-- The numbers read as doubles. -/
def nums (g : QGrad) : List Numeral := g.weight :: g.q ++ g.rows.flatten

/-- What is stored. -/
def entry (rd : Numeral → F64) (g : QGrad) : PyVal :=
  .dict ([(.str (py"qpt"), .tuple (g.q.map fun n => .float (rd n))), (.str (py"pth"), .tuple [.float (rd g.weight)])] ++
    if g.rows = [] then [] else
    [(.str (py"n"), .tuple (g.rows.filterMap fun r => (r[0]?).map fun n => .int (intOf n))),
     (.str (py"f"), .tuple (g.rows.filterMap fun r => (r[1]?).map fun n => .float (rd n))),
     (.str (py"Grad_qf"), .tuple (g.rows.filterMap fun r => (r[2]?).map fun n => .float (rd n)))])

end QGrad

/-- The values appended to the list of this name. -/
def addAll (d : Dict Key PyVal) (k : Str) (vs : List PyVal) : Dict Key PyVal :=
  if vs = [] then d
  else match d.get? (.str k) with
    | some (.list l) => d.set (.str k) (.list (l ++ vs))
    | _ => d.set (.str k) (.list vs)

/-- A part of a `.phonon_dos` file. -/
inductive DosPart
  | header (items : List HeadItem)
  | grad (gs : List QGrad)
  /-- the density of states: frequency, total and that of each of the species named -/
  | dos (species : List Str) (rows : List (List Numeral))
  | other

namespace DosPart

/-- The lines of a part. -/
def Lines : DosPart → List Str → Prop
  | .header items, ls => HeaderLines [] items ls
  | .grad gs, ls => StartsNone [py"BEGIN header"] ls ∧ ∃ inner, Enclosed (py"BEGIN GRADIENTS") (py"END GRADIENTS") ls inner ∧
      (∀ l ∈ ls.head?, NoDigit l) ∧ (∀ l ∈ ls.getLast?, NoDigit l) ∧
      ∃ parts, List.Forall₂ QGrad.Lines parts gs ∧ inner = parts.flatten
  | .dos species rows, ls => StartsNone [py"BEGIN header", py"BEGIN GRADIENTS"] ls ∧ ∃ inner,
      Enclosed (py"BEGIN DOS") (py"END DOS") ls inner ∧
      (∀ l ∈ ls.head?, ∃ a b c d e, Fields l ([a, b, c, d, e] ++ species)) ∧ List.Forall₂ NumLine inner rows
  | .other, ls => StartsNone [py"BEGIN header", py"BEGIN GRADIENTS", py"BEGIN DOS"] ls ∧ ls.length = 1

/-- A word of letters, digits and underscores that starts with no digit. -/
def Ident (w : Str) : Prop :=
  (∀ c ∈ w.head?, ¬ (48 ≤ c ∧ c ≤ 57)) ∧ w ≠ [] ∧
  ∀ c ∈ w, 48 ≤ c ∧ c ≤ 57 ∨ 65 ≤ c ∧ c ≤ 90 ∨ 97 ≤ c ∧ c ≤ 122 ∨ c = 95

/-- The numbers are well-formed and in range, the species distinct words, and the header counts nothing under the names
of the tables. -/
def Ok : DosPart → Prop
  | .header items => (∀ i ∈ items, ∀ n ∈ i.nums, n.Valid ∧ n.InRange) ∧ ∀ i ∈ items, ∀ key n, i = .count key n →
      Str.join (py" ") key ≠ py"gradients" ∧ Str.join (py" ") key ≠ py"dos"
  | .grad gs => ∀ g ∈ gs, g.Ok
  | .dos species rows => (∀ s ∈ species, Ident s) ∧ (py"freq" :: py"g" :: species).Nodup ∧ ∀ r ∈ rows, RowOk (species.length + 2) r
  | .other => True

/-- The numbers read. -/
def nums : DosPart → List Numeral
  | .header items => items.flatMap HeadItem.nums
  | .grad gs => gs.flatMap QGrad.nums
  | .dos _ rows => rows.flatten
  | .other => []

/-- What a part adds to the result: of a density of states the rows chosen by `keep`. -/
def put (rd : Numeral → F64) (keep : List (List Numeral) → List (List Numeral)) (d : Dict Key PyVal) : DosPart → Dict Key PyVal
  | .header items => merge d (headerOf [] rd items)
  | .grad gs => addAll d (py"gradients") (gs.map (QGrad.entry rd))
  | .dos species rows => addTable d (py"dos") (columnTable rd (py"freq" :: py"g" :: species) (keep rows))
  | .other => d

end DosPart
end Verif.Spec
