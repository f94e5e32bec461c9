import Verif.Spec.Mulliken
import Verif.Spec.Header
import Verif.Spec.Labelled
/-
Tables of `.castep` files with a row for each atom.
-/
namespace Verif.Spec
open Verif

/-- The line begins with a blank. -/
def Indented (l : Str) : Prop := ∃ c s, l = c :: s ∧ isSpace c = true

/-- An atom with its number, and numbers for it. -/
structure IonRow where
  name : AtomName
  idx : Str
  nums : List Numeral
  deriving DecidableEq

namespace IonRow

def Ok (k : Nat) (r : IonRow) : Prop := r.name.Valid ∧ Numeral.AllDigits r.idx ∧ r.idx ≠ [] ∧ RowOk k r.nums

instance (k : Nat) (r : IonRow) : Decidable (r.Ok k) := inferInstanceAs (Decidable (_ ∧ _ ∧ _ ∧ _))

/-- The atom as the parser names it. -/
def key (r : IonRow) : Key := .tup [.str r.name.text, .int (Numeral.nat r.idx)]

/-- The atom and its numbers in an indented line, perhaps with more columns. -/
def Line (l : Str) (r : IonRow) : Prop := Indented l ∧ ∃ more, IonLine l r.name (r.idx :: (r.nums.map Numeral.text ++ more))

end IonRow

/-- Printed with a decimal point. -/
def HasPoint (n : Numeral) : Prop := n.frac ≠ none

instance (n : Numeral) : Decidable (HasPoint n) := inferInstanceAs (Decidable (¬ _))

/-- The number without its exponent. -/
def mantissa (n : Numeral) : Numeral := { n with exp := none }

/-- The initial spin of an atom and whether it is fixed: a row between bars. -/
structure SpinRow extends IonRow where
  fixed : Bool
  deriving DecidableEq

def SpinRow.Line (l : Str) (r : SpinRow) : Prop :=
  ∃ g l' more, l = g ++ 124 :: l' ∧ Blank g ∧ Indented l' ∧
    IonLine l' r.name (r.idx :: (r.nums.map Numeral.text ++ (if r.fixed then py"T" else py"F") :: py"|" :: more))

/-- What is reported of the spin. -/
def SpinRow.info (rd : Numeral → F64) (r : SpinRow) : List (Key × PyVal) :=
  (([py"spin", py"magmom"].zip r.nums).map fun p => (.str p.1, .float (rd p.2))) ++ [(.str (py"fix"), .bool r.fixed)]

/-- The Born charges of an atom, three rows, with a label perhaps. -/
structure BornRow extends IonRow where
  label : Option Str
  row2 : List Numeral
  row3 : List Numeral
  deriving DecidableEq

namespace BornRow

def Ok (r : BornRow) : Prop := r.toIonRow.Ok 3 ∧ (∀ n ∈ r.nums, HasPoint n ∧ n.exp = none) ∧ RowOk 3 r.row2 ∧ RowOk 3 r.row3 ∧
  ∀ w ∈ r.label, w ≠ [] ∧ ∀ c ∈ w, isSpace c = false

instance (r : BornRow) : Decidable r.Ok := inferInstanceAs (Decidable (_ ∧ (∀ n ∈ _, _) ∧ _ ∧ _ ∧ ∀ n ∈ _, _))

/-- The atom, with the label in brackets. -/
def key (r : BornRow) : Key :=
  .tup [.str (r.name.text ++ (match r.label with | some w => py" [" ++ w ++ py"]" | none => [])), .int (Numeral.nat r.idx)]

def Lines (r : BornRow) (ls : List Str) : Prop := ∃ l1 l2 l3, ls = [l1, l2, l3] ∧ Indented l1 ∧
  IonLine l1 r.name (r.idx :: (r.nums.map Numeral.text ++ r.label.toList.map (py"ID=" ++ ·))) ∧
  Fields l2 (r.row2.map Numeral.text) ∧ Fields l3 (r.row3.map Numeral.text)

/-- The tensor. -/
def tensor (rd : Numeral → F64) (r : BornRow) : PyVal :=
  .tuple ([r.nums, r.row2, r.row3].map fun ns => .tuple (ns.map fun n => .float (rd n)))

/-- Lines without digits, and the lines of atoms. -/
inductive Table : List Str → List BornRow → Prop
  | nil : Table [] []
  | skip {l ls rs} : NoDigit l → Table ls rs → Table (l :: ls) rs
  | row {a ls r rs} : Lines r a → Table ls rs → Table (a ++ ls) (r :: rs)

end BornRow

/-! ### Tables with two keys -/

/-- Entries under two keys, in the order in which they appear first. -/
def nested (es : List (Key × Key × PyVal)) : Dict Key PyVal :=
  ((es.map fun e => e.1).eraseDups).map fun k => (k, .dict (Dict.ofList ((es.filter (·.1 = k)).map Prod.snd)))

/-- The population of an orbital of an atom. -/
structure OrbRow extends IonRow where
  orb : Str
  deriving DecidableEq

/-- The names of orbitals. -/
def orbitals : List Str :=
  [c!"S", c!"P", c!"D", c!"F"].flatMap fun c => [[c], [c, c!"x"], [c, c!"y"], [c, c!"z"]]

namespace OrbRow

def Line (l : Str) (r : OrbRow) : Prop := ∃ more, IonLine l r.name (r.idx :: r.orb :: (r.nums.map Numeral.text ++ more))

def entry (rd : Numeral → F64) (r : OrbRow) : Key × Key × PyVal :=
  (r.key, .str r.orb, match r.nums with | n :: _ => .float (rd n) | [] => .none)

end OrbRow

/-- The line of the total charge. -/
def OrbTotal (l : Str) (n : Numeral) : Prop := ∃ more, Fields l (py"Total:" :: n.text :: more)

/-- The line of the projected populations. -/
def OrbProjected (l : Str) (ns : List Numeral) : Prop :=
  HasNumbers l ns ∧ Occurs (py"total projected") l ∧ ∃ ws, Fields l (py"The" :: py"total" :: ws)

/-- Lines between the rows. -/
def OrbOther (l : Str) : Prop := NoDigit l ∧ ¬ Occurs (py"total projected") l

/-- The displacement parameters of an atom at a temperature. -/
structure DispRow extends IonRow where
  temp : Numeral
  deriving DecidableEq

namespace DispRow

def Line (l : Str) (r : DispRow) : Prop := ∃ g s more, l = g ++ (r.temp.text ++ s) ∧ Blank g ∧ g ≠ [] ∧ Indented s ∧
  IonLine s r.name (r.idx :: (r.nums.map Numeral.text ++ more))

/-- Under the text of the temperature and the atom. -/
def entry (rd : Numeral → F64) (r : DispRow) : Key × Key × PyVal :=
  (.str r.temp.text, r.key, .tuple (r.nums.map fun n => .float (rd n)))

end DispRow

/-- The line does not begin with a number. -/
def NoNumberFirst (l : Str) : Prop := Blank l ∨ ∃ w ws, Fields l (w :: ws) ∧ NoDigit w

/-! ### Thermodynamics -/

/-- The names of the columns. -/
def thermoLabels : List Str := [py"t", py"e", py"f", py"s", py"cv"]

/-- Lines between the rows. -/
def ThermoOther (l : Str) : Prop := NoNumberFirst l ∧ ¬ Occurs (py"Zero-point energy") l

/-- The line of the zero-point energy. -/
def ThermoZero (l : Str) (n : Numeral) : Prop :=
  NoNumberFirst l ∧ Occurs (py"Zero-point energy") l ∧ ∃ ns, HasNumbers l (n :: ns) ∧ ∀ m ∈ ns, m.Valid

/-- The line of a temperature. -/
def ThermoRow (l : Str) (ns : List Numeral) : Prop := NumLine l ns ∧ ¬ Occurs (py"Zero-point energy") l

end Verif.Spec
