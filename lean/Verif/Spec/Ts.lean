import Verif.Spec.MdFrame
import Verif.Spec.Header
import Mathlib.Data.List.Forall2
/-
`.ts` files.
-/
namespace Verif.Spec
open Verif

inductive TsKind
  | reagent | product | test
  deriving DecidableEq

namespace TsKind

/-- The word that starts a structure. -/
def mark : TsKind → Str
  | reagent => py"REA"
  | product => py"PRO"
  | test => py"TST"

/-- Where its structures are reported. -/
def key : TsKind → Str
  | reagent => py"reagent"
  | product => py"product"
  | test => py"test"

def all : List TsKind := [reagent, product, test]

end TsKind

/-- A structure of a path: the reaction coordinate, and lines as in a trajectory. -/
structure TsStruct where
  kind : TsKind
  coord : Numeral
  lines : List FLine

namespace TsStruct

/-- The first line of a structure: mark, number, reaction coordinate. -/
def Title (s : TsStruct) (l : Str) : Prop :=
  ∃ g0 g1 idx g2 tail, l = g0 ++ (s.kind.mark ++ (g1 ++ (idx ++ (g2 ++ (s.coord.text ++ tail))))) ∧
    Blank g0 ∧ Blank g1 ∧ Numeral.AllDigits idx ∧ idx ≠ [] ∧ Blank g2 ∧ g2 ≠ [] ∧ Blank tail

/-- A row of numbers or the vector of an atom, with its tag. -/
def LineOk (l : FLine) : Prop :=
  l.Ok ∧ (∀ n ∈ l.numerals, n.InRange) ∧
  match l with
  | .glob _ _ _ tag _ => tag ≠ py"reaction_coordinate"
  | .atom .. => True
  | _ => False

def Ok (s : TsStruct) : Prop := s.coord.Valid ∧ s.coord.InRange ∧ ∀ l ∈ s.lines, LineOk l

/-- The dictionary says what the structure says, and nothing else: the reaction coordinate, under every tag and its long name the rows, and for every atom
under every tag and its long name the vector. -/
structure Says (val : Numeral → F64) (s : TsStruct) (d : Dict Key PyVal) : Prop where
  coord : d.get? (.str (py"reaction_coordinate")) = some (.float (val s.coord))
  tags : ∀ name, name ≠ py"reaction_coordinate" →
    d.get? (.str name) = match rowsIn val s.lines (tagOf name) with | [] => none | rows => some (.list rows)
  ions : ∀ ion ∈ ionsIn s.lines, ∃ e : Dict Key PyVal, d.get? ion = some (.dict e) ∧
    (∀ name, e.get? (.str name) = vecIn val s.lines ion (tagOf name)) ∧ ∀ k, (∀ n, k ≠ .str n) → e.get? k = none
  others : ∀ k, (∀ n, k ≠ .str n) → k ∉ ionsIn s.lines → d.get? k = none

end TsStruct

inductive TsPart
  | struct (s : TsStruct)
  /-- a line that says that this is the confirmation of a transition state -/
  | confirm
  /-- a line between structures -/
  | other

namespace TsPart

def Marked (l : Str) : Prop := ∃ k : TsKind, Occurs k.mark l

/-- The line does not start with a mark and a number. -/
def Untitled (l : Str) : Prop :=
  ∀ (g g' r : Str) (k : TsKind) (d : Nat), l = g ++ (k.mark ++ (g' ++ d :: r)) → Blank g → Blank g' → ¬ (48 ≤ d ∧ d ≤ 57)

/-- The lines of a part; a structure ends with a blank line. -/
def Lines : TsPart → List Str → Prop
  | .struct s, ls => ∃ title last, ls = title :: (s.lines.map FLine.text ++ [last]) ∧ s.Title title ∧ Blank last
  | .confirm, ls => ∃ l, ls = [l] ∧ Occurs (py"TSConfirmation") l
  | .other, ls => ∃ l, ls = [l] ∧ ¬ Occurs (py"TSConfirmation") l ∧ ¬ Marked l

def Ok : TsPart → Prop
  | .struct s => s.Ok
  | _ => True

def isConfirm : TsPart → Bool
  | .confirm => true
  | _ => false

/-- The structures of this kind. -/
def ofKind (k : TsKind) : TsPart → Option TsStruct
  | .struct s => if s.kind = k then some s else none
  | _ => none

/-- Whether this is a confirmation, and the structures of each kind in order. -/
structure Says (val : Numeral → F64) (parts : List TsPart) (d : Dict Key PyVal) : Prop where
  confirmation : d.get? (.str (py"confirmation")) = if parts.any isConfirm then some (PyVal.bool true) else none
  kinds : ∀ k : TsKind, ∃ es : List (Dict Key PyVal), List.Forall₂ (TsStruct.Says val) (parts.filterMap (ofKind k)) es ∧
    d.get? (.str k.key) = if es = [] then none else some (.list (es.map PyVal.dict))
  others : ∀ k, k ≠ .str (py"confirmation") → (∀ j : TsKind, k ≠ .str j.key) → d.get? k = none

end TsPart

end Verif.Spec
