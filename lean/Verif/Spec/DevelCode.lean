import Verif.Spec.CellFile
import Verif.Spec.GenBlock
import Verif.Spec.LineTables
import Verif.Spec.Table
/-
Settings in a `devel_code` block.
-/
namespace Verif.Spec
open Verif

/-- A word of a `devel_code` block: a setting `key=value`, or any other word, such as a flag. -/
inductive DevelWord
  | setting (key value : Str)
  | other (w : Str)

namespace DevelWord

def text : DevelWord → Str
  | setting k v => k ++ c!"=" :: v
  | other w => w

def NameChar (c : Nat) : Prop := (65 ≤ c ∧ c ≤ 90) ∨ (97 ≤ c ∧ c ≤ 122) ∨ (48 ≤ c ∧ c ≤ 57) ∨ c = c!"_"

instance (c : Nat) : Decidable (NameChar c) := inferInstanceAs (Decidable (_ ∨ _))

def Letter (c : Nat) : Prop := (65 ≤ c ∧ c ≤ 90) ∨ (97 ≤ c ∧ c ≤ 122) ∨ c = c!"_"

instance (c : Nat) : Decidable (Letter c) := inferInstanceAs (Decidable (_ ∨ _))

/-- Names are of letters, digits and underscores; a value has no further sign of equality. -/
def Ok : DevelWord → Prop
  | setting k v => (k ≠ [] ∧ ∀ c ∈ k, NameChar c) ∧ (v ≠ [] ∧ ∀ c ∈ v, c ∉ py";:=%") ∧ PropText v
  | other w => ∀ c ∈ w, c ∉ py":=%"

/-- The name and the value of a setting. -/
def pair? : DevelWord → Option (Str × Str)
  | setting k v => some (k, v)
  | other _ => none

/-- A line of words with spaces and tabs between them. -/
def Line (l : Str) (ws : List DevelWord) : Prop := Fields l (ws.map text) ∧ ∀ c ∈ l, isSpace c = true → c ∈ py" \t\n"

end DevelWord

/-- The line closes a `devel_code` block by name: `%endblock devel_code` in any letter case, with any whitespace around the words and perhaps a comment after them. -/
def ClosesDevel (line : Str) : Prop :=
  ∃ u g a m b g', Uncommented cellComments line u ∧ u = g ++ (a ++ (m ++ b) ++ g') ∧ Blank g ∧ Str.lower a = py"%endblock" ∧ m ≠ [] ∧ Blank m ∧
    Str.lower b = py"devel_code" ∧ Blank g'

end Verif.Spec
