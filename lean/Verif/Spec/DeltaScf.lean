import Verif.Spec.LineTables
/-
The report on the states of a delta SCF calculation in a `.castep` file.
-/
namespace Verif.Spec
open Verif

/-- What the report says: the model the bands are taken from, a state (three lines: its number, band and spin), the population of
a state, the file a state is written to. -/
inductive DeltaItem where
  | source (name : Str)
  | state (band spin : Numeral)
  | pop (band spin n : Numeral)
  | file (band spin : Numeral) (name : Str)
  | other

namespace DeltaItem

/-- None of the texts occurs. -/
def Without (ws : List Str) (l : Str) : Prop := ∀ w ∈ ws, ¬ Occurs w l

/-- The line names the model. -/
def Source (l : Str) : Prop := ∃ r, l = py"Taking band from" ++ r

/-- The lines that say it. -/
def Lines : DeltaItem → List Str → Prop
  | source name, ls => ∃ l ws, ls = [l] ∧ Source l ∧ Fields l (ws ++ [name])
  | state band spin, ls => ∃ l₁ l₂ l₃ ns ms, ls = [l₁, l₂, l₃] ∧
      (¬ Source l₁ ∧ Occurs (py"MODOS state") l₁) ∧
      (¬ Source l₂ ∧ Without [py"MODOS state"] l₂ ∧ Occurs (py"nr.") l₂ ∧ HasNumbers l₂ (band :: ns) ∧ ∀ n ∈ ns, n.Valid) ∧
      (¬ Source l₃ ∧ Without [py"MODOS state", py"nr."] l₃ ∧ Occurs (py"spin") l₃ ∧ HasNumbers l₃ (spin :: ms) ∧ ∀ n ∈ ms, n.Valid)
  | pop band spin n, ls => ∃ l ns, ls = [l] ∧ ¬ Source l ∧ Without [py"MODOS state", py"nr.", py"spin"] l ∧
      Occurs (py"Population of state") l ∧ HasNumbers l (band :: spin :: n :: ns) ∧ ∀ n ∈ ns, n.Valid
  | file band spin name, ls => ∃ l seed g ws, ls = [l] ∧ ¬ Source l ∧ Without [py"MODOS state", py"nr.", py"spin", py"Population of state"] l ∧
      Occurs (py"Writing file") l ∧ l = seed ++ (py"_" ++ (band.text ++ (py"_" ++ (spin.text ++ g)))) ∧ Blank g ∧ Fields l (ws ++ [name])
  | other, ls => ∃ l, ls = [l] ∧ ¬ Source l ∧
      Without [py"MODOS state", py"nr.", py"spin", py"Population of state", py"Writing file"] l

def Ok : DeltaItem → Prop
  | state band spin => (band.Valid ∧ band.IsInt) ∧ spin.Valid ∧ spin.IsInt
  | pop band spin n => (band.Valid ∧ band.IsInt) ∧ (spin.Valid ∧ spin.IsInt) ∧ n.Valid ∧ n.InRange
  | file band spin _ => (band.Valid ∧ band.IsInt) ∧ spin.Valid ∧ spin.IsInt
  | _ => True

/-- Is the state the one of this band and spin? -/
abbrev Same (band spin b s : Numeral) : Prop := intOf b = intOf band ∧ intOf s = intOf spin

/-- What is said about the state with this band and spin. -/
def about (rd : Numeral → F64) (band spin : Numeral) : DeltaItem → Option (Key × PyVal)
  | pop b s n => if Same band spin b s then some (.str (py"pop"), .float (rd n)) else none
  | file b s name => if Same band spin b s then some (.str (py"file"), .str name) else none
  | _ => none

end DeltaItem

/-- What is said about each state: its band, its spin, then what follows about them. -/
def deltaStates (rd : Numeral → F64) : List DeltaItem → List (List (Key × PyVal))
  | [] => []
  | .state b s :: rest =>
    ((.str (py"band"), .int (intOf b)) :: (.str (py"spin"), .int (intOf s)) :: rest.filterMap (DeltaItem.about rd b s)) :: deltaStates rd rest
  | _ :: rest => deltaStates rd rest

/-- The model named last. -/
def deltaSource (items : List DeltaItem) : Option Str :=
  (items.filterMap fun | .source n => some n | _ => none).getLast?

/-- The report: the states, and the model if there is one. -/
def DeltaReport (rd : Numeral → F64) (items : List DeltaItem) (v : PyVal) : Prop :=
  ∃ ds, List.Forall₂ LastWins (deltaStates rd items) ds ∧
    v = .dict ((.str (py"states"), .list (ds.map .dict)) :: (deltaSource items).toList.map fun n => (.str (py"file"), .str n))

end Verif.Spec
