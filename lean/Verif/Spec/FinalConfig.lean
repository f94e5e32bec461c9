import Verif.Spec.CastepDoc
import Verif.Spec.GeomTable
import Verif.Spec.UnitCell
import Verif.Spec.AtomVec
/-
The final configuration of a geometry optimisation in a `.castep` file.
-/
namespace Verif.Spec
open Verif

/-- What the report has: the cell, the positions of the atoms, a quantity, or anything else. -/
inductive ConfigItem where
  | cell (items : List CellLine)
  | atoms (rows : List AtomVec)
  | value (key : Str) (n : Numeral)
  | other

namespace ConfigItem

/-- A line that is not a title. -/
def Plain (l : Str) : Prop := ¬ Occurs (py"Unit Cell") l ∧ ¬ Occurs (py"Cell Contents") l

/-- The lines: the cell up to the third blank line, the table of the atoms up to its second ruler, a quantity after the name of the
minimiser. -/
def Lines : ConfigItem → List Str → Prop
  | cell items, ls => ∃ t b, ls = t :: b ∧ Occurs (py"Unit Cell") t ∧ Cut Blank (fun l => ¬ Blank l) 3 b ∧ List.Forall₂ CellLine.Line items ls
  | atoms rows, ls => ∃ t b, ls = t :: b ∧ Headed (py"Cell Contents") t ∧ ¬ Occurs (py"Unit Cell") t ∧ Framed (c!"x") 2 b ∧
      Interleaved NoDigit (fun l a => AtomVec.Line l a) ls rows
  | value key n, ls => ∃ l g m name g' r, ls = [l] ∧ Plain l ∧ l = g ++ (m ++ 58 :: (name ++ 61 :: (g' ++ (n.text ++ r)))) ∧ Blank g ∧ m ∈ MINIMISERS ∧
      61 ∉ name ∧ name ≠ [] ∧ KeyName name key ∧ Blank g' ∧ (∀ c, r.head? = some c → isSpace c = true)
  | other, ls => ∃ l, ls = [l] ∧ Plain l ∧ (58 ∉ l ∨ 61 ∉ l)

def Ok : ConfigItem → Prop
  | cell items => ∀ i ∈ items, ∀ n ∈ i.nums, n.Valid ∧ n.InRange
  | atoms rows => (∀ a ∈ rows, a.Ok) ∧ (rows.map AtomVec.key).Nodup
  | value _ n => n.Valid ∧ n.InRange ∧ ¬ n.IsInt
  | _ => True

/-- The entry. -/
def entry (rd fl : Numeral → F64) : ConfigItem → Option (Key × PyVal)
  | cell items => some (.str (py"cell"), unitCell rd fl items)
  | atoms rows => some (.str (py"atoms"), .dict (rows.map (AtomVec.entry rd)))
  | value key n => some (.str key, .float (rd n))
  | other => none

end ConfigItem
end Verif.Spec
