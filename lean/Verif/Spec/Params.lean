import Verif.Spec.LineTables
import Verif.Spec.Table
/-
What the list of parameters of a `.castep` file says.
-/
namespace Verif.Spec

/-- Is this a character of the title of a group? -/
def titleChar (c : Nat) : Prop := isAlpha c = true ∨ c = c!" " ∨ c = c!"-"

instance (c : Nat) : Decidable (titleChar c) := inferInstanceAs (Decidable (_ ∨ _))

/-- A line such as `**** General Parameters ****`, with the title it shows. -/
def TitleLine (l title : Str) : Prop :=
  ∃ g s t more, l = g ++ (s ++ c!" " :: (title ++ c!" " :: (t ++ more))) ∧ Blank g ∧ (s ≠ [] ∧ ∀ c ∈ s, c = c!"*") ∧
    (t ≠ [] ∧ ∀ c ∈ t, c = c!"*") ∧ title ≠ [] ∧ ∀ c ∈ title, titleChar c

/-- The title without the word, which occurs in it at most once. -/
def Dropped (w title rest : Str) : Prop :=
  (¬ Occurs w title ∧ rest = title) ∨ ∃ a b, title = a ++ (w ++ b) ∧ ¬ Occurs w a ∧ ¬ Occurs w b ∧ rest = a ++ b

/-- A line such as `output length unit : A`: what is before the word `unit`, and what is after the colon. -/
def UnitLine (l q v : Str) : Prop :=
  ∃ g g2 g3 e, l = g ++ (py"output " ++ (q ++ (py" unit" ++ (g2 ++ c!":" :: (g3 ++ (v ++ e)))))) ∧ Blank g ∧ Blank g2 ∧ Blank g3 ∧
    (e = [] ∨ e = [10]) ∧ 10 ∉ q ++ g2 ++ g3 ++ v ∧ (∀ c, (v ++ e).head? = some c → isSpace c = false) ∧ ¬ Occurs (py" unit") (g2 ++ c!":" :: (g3 ++ (v ++ e)))

/-- A line that may be taken for one with a unit. -/
def UnitLike (l : Str) : Prop :=
  ∃ g q g2 v, l = g ++ (py"output " ++ (q ++ (py" unit" ++ (g2 ++ c!":" :: v)))) ∧ Blank g ∧ Blank g2 ∧ 10 ∉ q

/-- The value of an option: a number with the words of its unit, or words. -/
inductive OptValue
  | number (n : Numeral) (unit : List Str)
  | text (ws : List Str)

namespace OptValue

/-- The words it shows. -/
def words : OptValue → List Str
  | number n us => n.text :: us
  | text ws => ws

/-- A number a double can hold, or a text whose first word does not begin with a number. -/
def Ok : OptValue → Prop
  | number n _ => n.Valid ∧ n.InRange
  | text ws => ∀ w ∈ ws.head?, ∀ n : Numeral, n.Valid → ¬ n.text <+: w

def nums : OptValue → List Numeral
  | number n _ => [n]
  | text _ => []

/-- The value of a number: an integer if it is written as one. -/
def ofNumber (rd : Numeral → F64) (n : Numeral) : PyVal := if n.IsInt then .int (intOf n) else .float (rd n)

/-- A number alone, a number with its unit, or a text with its spaces made single. -/
def val (rd : Numeral → F64) : OptValue → PyVal
  | number n [] => ofNumber rd n
  | number n (u :: us) => .tuple (ofNumber rd n :: (u :: us).map .str)
  | text ws => .str (Str.join (py" ") ws)

end OptValue

/-- What a line says. -/
inductive ParamItem
  | group (name : Str)
  | unit (of' is' : Str)
  | option (name : Str) (value : OptValue)
  | nothing

/-- The line says this. -/
def ParamItem.Line (l : Str) : ParamItem → Prop
  | group name => ¬ Occurs (py"Developer Code") l ∧ ∃ title rest ws, TitleLine l title ∧ Dropped (py"Parameters") title rest ∧ Fields rest ws ∧
      name = Str.lower (Str.join (py" ") ws)
  | unit q v => ¬ Occurs (py"Developer Code") l ∧ ∃ a b qs vs, UnitLine l a b ∧ Fields a qs ∧ Fields b vs ∧ q = Str.join (py" ") qs ∧ v = Str.join (py" ") vs
  | option name value => ¬ Occurs (py"Developer Code") l ∧ (∀ t, ¬ TitleLine l t) ∧ ¬ UnitLike l ∧
      ∃ a b ns, l = a ++ c!":" :: b ∧ c!":" ∉ a ∧ c!":" ∉ b ∧ Fields a ns ∧ Fields b value.words ∧ name = Str.join (py" ") ns ∧ value.Ok
  | nothing => ¬ Occurs (py"Developer Code") l ∧ (∀ t, ¬ TitleLine l t) ∧ c!":" ∉ l

/-- The numbers. -/
def ParamItem.nums : ParamItem → List Numeral
  | option _ v => v.nums
  | _ => []

/-- The groups, each with its options; the first two arguments are the group the list begins in and its options so far. -/
def paramGroups (rd : Numeral → F64) : Str → List (Key × PyVal) → List ParamItem → List (Str × List (Key × PyVal))
  | cur, opts, [] => [(cur, opts)]
  | cur, opts, .group name :: rest => (cur, opts) :: paramGroups rd name [] rest
  | cur, opts, .option name v :: rest => paramGroups rd cur (opts ++ [(.str name, v.val rd)]) rest
  | cur, opts, .unit _ _ :: rest | cur, opts, .nothing :: rest => paramGroups rd cur opts rest

/-- The units. -/
def paramUnits : List ParamItem → List (Key × PyVal)
  | [] => []
  | .unit q v :: rest => (.str q, .str v) :: paramUnits rest
  | .group _ :: rest | .option _ _ :: rest | .nothing :: rest => paramUnits rest

/-- The last group of this name with options. -/
def lastGroup (gs : List (Str × List (Key × PyVal))) (name : Str) : Option (Str × List (Key × PyVal)) :=
  gs.reverse.find? fun g => !g.2.isEmpty && g.1 == name

/-- The dictionary has the units, and each group with options: the last one of each name. -/
def ParamDict (rd : Numeral → F64) (items : List ParamItem) (d : List (Key × PyVal)) : Prop :=
  (d.map Prod.fst).Nodup ∧
  (∀ k, k ∈ d.map Prod.fst ↔ (k = .str (py"output_units") ∧ paramUnits items ≠ []) ∨ ∃ g, k = .str g ∧ (lastGroup (paramGroups rd [] [] items) g).isSome) ∧
  (∀ v, (.str (py"output_units"), v) ∈ d → ∃ e, v = .dict e ∧ LastWins (paramUnits items) e) ∧
  ∀ g o v, lastGroup (paramGroups rd [] [] items) g = some o → (.str g, v) ∈ d → ∃ e, v = .dict e ∧ LastWins o.2 e

end Verif.Spec
