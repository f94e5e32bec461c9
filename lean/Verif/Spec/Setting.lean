import Verif.Spec.CellFile
import Verif.Spec.Number
import Verif.Py.Value
import Mathlib.Data.List.Forall2
/-
Settings of cell and param files: `keyword separator value`.
-/
namespace Verif.Spec
open Verif

/-- Letters and underscores. -/
def Keyword (k : Str) : Prop := k ≠ [] ∧ ∀ c ∈ k, isAlpha c = true ∨ c = c!"_"

/-- Blanks, among which there may be one `:` or `=`. -/
def Separator (s : Str) : Prop :=
  ∃ a c b, s = a ++ c :: b ∧ (∀ x ∈ a ++ b, x = 32 ∨ x = 9) ∧ (c = 32 ∨ c = 9 ∨ c = c!":" ∨ c = c!"=")

/-- Nothing, or a comment. -/
def CommentTail (s : Str) : Prop := ∀ c, s.head? = some c → c = c!"#" ∨ c = c!"!"

/-- The line assigns this text to the keyword. -/
def SettingLine (line key value : Str) : Prop :=
  ∃ g sep b com, line = g ++ (key ++ (sep ++ (value ++ (b ++ com)))) ∧ Blank g ∧ Keyword key ∧ Separator sep ∧ Blank b ∧
    CommentTail com ∧ ∀ c ∈ value, c ≠ c!"#" ∧ c ≠ c!"!"

/-- Numbers with blanks between them. -/
inductive NumberRow : Str → List Numeral → Prop
  | one {n} : NumberRow n.text [n]
  | cons {n g s ns} : Blank g → g ≠ [] → NumberRow s ns → NumberRow (n.text ++ (g ++ s)) (n :: ns)

/-- A unit: visible, and not the start of a number. -/
def UnitText (u : Str) : Prop :=
  u ≠ [] ∧ (∀ c ∈ u, isSpace c = false) ∧ ∀ c, u.head? = some c → ¬ (48 ≤ c ∧ c ≤ 57) ∧ c ∉ py"+-."

/-- A text that cannot be taken for a number or for part of the separator, without blanks at its ends. -/
def PlainText (t : Str) : Prop :=
  t ≠ [] ∧ (∀ c, t.head? = some c → ¬ (48 ≤ c ∧ c ≤ 57) ∧ c ∉ py"+-.:=" ∧ isSpace c = false) ∧
    ∀ c, t.getLast? = some c → isSpace c = false

/-- The logical a text stands for, if it is one. -/
def logical (t : Str) : Option Bool :=
  if Str.lower t = py"t" ∨ Str.lower t = py"true" then some true
  else if Str.lower t = py"f" ∨ Str.lower t = py"false" then some false
  else none

/-- The value of a text. -/
def textValue (t : Str) : PyVal :=
  match logical t with
  | some b => .bool b
  | none => .str t

end Verif.Spec

namespace Verif.Spec
open Verif

/-- The value of a row of numbers: whole numbers if all are, floats otherwise; a tuple unless there is only one. -/
inductive NumValue : List Numeral → PyVal → Prop
  | int {n} {i : ℤ} : n.IsInt → (i : ℚ) = n.value → NumValue [n] (.int i)
  | float {n x} : ¬ n.IsInt → F64.Nearest n.value x → NumValue [n] (.float x)
  | ints {ns r} : 2 ≤ ns.length → (∀ n ∈ ns, n.IsInt) →
      List.Forall₂ (fun n v => ∃ i : ℤ, v = .int i ∧ (i : ℚ) = n.value) ns r → NumValue ns (.tuple r)
  | floats {ns r} : 2 ≤ ns.length → (¬ ∀ n ∈ ns, n.IsInt) →
      List.Forall₂ (fun n v => ∃ x, v = .float x ∧ F64.Nearest n.value x) ns r → NumValue ns (.tuple r)

end Verif.Spec
