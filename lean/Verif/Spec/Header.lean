import Verif.Spec.Table
import Mathlib.Data.List.Forall2
/-
What the header of a small output file says.
-/
namespace Verif.Spec
open Verif

/-- The word contains a digit. -/
def hasDigit (w : Str) : Bool := w.any fun c => decide (48 ≤ c ∧ c ≤ 57)

/-- Not a row of a table: fewer than three words contain digits. -/
def Plain (line : Str) : Prop := ∃ ws, Fields line ws ∧ (ws.filter hasDigit).length < 3

/-- The line starts with `Number of`. -/
def IsCount (line : Str) : Prop := ∃ g r, line = g ++ py"Number of" ++ r ∧ Blank g

/-- The text consists of these numbers with other text around them. -/
def HasNumbers (line : Str) (ns : List Numeral) : Prop :=
  (ns = [] ∧ ∀ c ∈ line, ¬ (48 ≤ c ∧ c ≤ 57)) ∨
  ∃ lead, ∃ l : List (Numeral × Str), l ≠ [] ∧ l.map Prod.fst = ns ∧ line = lead ++ l.flatMap (fun p => p.1.text ++ p.2) ∧
    Leading lead ∧ (∀ p ∈ l.dropLast, Between p.2) ∧ ∀ p ∈ l.getLast?, Trailing p.2

/-- The position of an ion in the header: number, fractional coordinates, species, mass. -/
structure IonPos where
  idx : Numeral
  u : Numeral
  v : Numeral
  w : Numeral
  spec : Str
  mass : Numeral
  deriving DecidableEq

/-- Decimals without exponent, and a chemical symbol. -/
def IonPos.Ok (p : IonPos) : Prop :=
  p.idx.Valid ∧ p.idx.IsInt ∧ (∀ n ∈ [p.u, p.v, p.w, p.mass], n.Valid ∧ n.InRange ∧ n.exp = none) ∧
  ∃ c cs, p.spec = c :: cs ∧ 65 ≤ c ∧ c ≤ 90 ∧ cs.length ≤ 2 ∧ ∀ d ∈ cs, 97 ≤ d ∧ d ≤ 122

/-- What a part of the header says. -/
inductive HeadItem
  /-- `Number of ...   n` -/
  | count (key : List Str) (n : Numeral)
  /-- `Unit cell vectors` and the rows after it -/
  | cell (rows : List (List Numeral))
  /-- an ion -/
  | ion (p : IonPos)
  /-- any other line; does it contain the option looked for, and which numbers -/
  | note (hit : Bool) (nums : List Numeral)
  deriving DecidableEq

/-- The lines of a part of the header. -/
def HeadItem.Lines (opt : Str) : HeadItem → List Str → Prop
  | .count key n, ls => ∃ line, ls = [line] ∧ IsCount line ∧ Plain line ∧
      Fields line (py"Number" :: py"of" :: (key ++ [n.text])) ∧ n.Valid ∧ n.IsInt ∧ Numeral.nat n.ip < 2 ^ 53
  | .cell rows, ls => ∃ title a b c x y z, ls = [title, a, b, c] ∧ rows = [x, y, z] ∧
      Occurs (py"Unit cell vectors") title ∧ ¬ IsCount title ∧ Plain title ∧
      ∀ p ∈ [(a, x), (b, y), (c, z)], Fields p.1 (p.2.map Numeral.text) ∧ ∀ n ∈ p.2, n.Valid ∧ n.InRange
  | .ion p, ls => ∃ line, ls = [line] ∧ p.Ok ∧
      Fields line [p.idx.text, p.u.text, p.v.text, p.w.text, p.spec, p.mass.text]
  | .note hit nums, ls => ∃ line, ls = [line] ∧ ¬ IsCount line ∧ ¬ Occurs (py"Unit cell vectors") line ∧ Plain line ∧
      (hit = true ↔ Occurs opt line) ∧ HasNumbers line nums ∧ ∀ n ∈ nums, n.Valid ∧ n.InRange

/-- What a part of the header adds to the result. -/
def HeadItem.entries (opt : Str) (rd : Numeral → F64) : HeadItem → List (Key × PyVal)
  | .count key n => [(.str (Str.join (py" ") key), .int (intOf n))]
  | .cell rows => [(.str (py"unit_cell"), .list (rows.map fun r => .tuple (r.map fun n => .float (rd n))))]
  | .ion _ => []
  | .note hit nums => if hit then [(.str opt, .tuple (nums.map fun n => .float (rd n)))] else []

/-- The ions of a header. -/
def ionsOf (items : List HeadItem) : List IonPos := items.filterMap fun | .ion p => some p | _ => none

/-- The table of positions. -/
def ionTable (rd : Numeral → F64) (ps : List IonPos) : List (Key × PyVal) :=
  if ps = [] then [] else
  [(.str (py"index"), .tuple (ps.map fun p => .int (intOf p.idx))),
   (.str (py"u"), .tuple (ps.map fun p => .float (rd p.u))),
   (.str (py"v"), .tuple (ps.map fun p => .float (rd p.v))),
   (.str (py"w"), .tuple (ps.map fun p => .float (rd p.w))),
   (.str (py"spec"), .list (ps.map fun p => .str p.spec)),
   (.str (py"mass"), .tuple (ps.map fun p => .float (rd p.mass)))]

/-- The whole header: entries in order (later ones replace earlier ones with the same name), and the positions. -/
def headerOf (opt : Str) (rd : Numeral → F64) (items : List HeadItem) : Dict Key PyVal :=
  (Dict.ofList (items.flatMap (HeadItem.entries opt rd))).set (.str (py"coords")) (.dict (ionTable rd (ionsOf items)))

/-- The numbers of a header that are read as doubles. -/
def HeadItem.nums : HeadItem → List Numeral
  | .count _ _ => []
  | .cell rows => rows.flatten
  | .ion p => [p.u, p.v, p.w, p.mass]
  | .note hit nums => if hit then nums else []

end Verif.Spec
