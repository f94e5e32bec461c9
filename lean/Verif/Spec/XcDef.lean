import Verif.Spec.LineTables
import Verif.Spec.Table
/-
The definition of a functional in a `.param` file, and the pseudopotentials in a `.cell` file.
-/
namespace Verif.Spec
open Verif

/-- A line of `xc_definition`. -/
inductive XcItem
  /-- A functional and its weight. -/
  | weight (key : Str) (n : Numeral)
  /-- The screening length. -/
  | length (n : Numeral)
  /-- The name of the screening function. -/
  | func (t : Str)
  /-- The projected-density integral, switched on or off. -/
  | ppd (t : Str)
  /-- The correction of the divergence, switched on or off. -/
  | divergence (t : Str)
  deriving DecidableEq

namespace XcItem

/-- The name in the result. -/
def key : XcItem → Str
  | weight k _ => k
  | length _ => py"nlxc_screening_length"
  | func _ => py"nlxc_screening_function"
  | ppd _ => py"nlxc_ppd_int"
  | divergence _ => py"nlxc_divergence_corr"

/-- The text of the value. -/
def text : XcItem → Str
  | weight _ n | length n => n.text
  | func t | ppd t | divergence t => t

/-- The line: a word whose name is that of the item, and the value. -/
def Line (l : Str) (i : XcItem) : Prop :=
  ∃ g name g', l = g ++ (name ++ (g' ++ i.text)) ∧ Blank g ∧ name ≠ [] ∧ (∀ c ∈ name, isSpace c = false) ∧ KeyName name i.key ∧
    Blank g' ∧ g' ≠ []

/-- A text that does not begin with a blank. -/
def Visible (t : Str) : Prop := t ≠ [] ∧ ∀ c, t.head? = some c → isSpace c = false

/-- Well-formed: numbers are in range, and a functional has none of the names of the parameters. -/
def Ok : XcItem → Prop
  | weight k n => (n.Valid ∧ n.InRange) ∧
      k ∉ [py"nlxc_screening_length", py"nlxc_screening_function", py"nlxc_ppd_int", py"nlxc_divergence_corr"]
  | length n => n.Valid ∧ n.InRange
  | func t | ppd t | divergence t => Visible t

/-- The weights. -/
def weightEntry (fl : Numeral → F64) : XcItem → List (Key × PyVal)
  | weight k n => [(.str k, .float (fl n))]
  | _ => []

/-- The parameters; something is switched on by `ON`, in letters of any case. -/
def paramEntry (fl : Numeral → F64) (i : XcItem) : List (Key × PyVal) :=
  match i with
  | weight _ _ => []
  | length n => [(.str i.key, .float (fl n))]
  | func t => [(.str i.key, .str t)]
  | ppd t | divergence t => [(.str i.key, .bool (decide (Str.lower t = py"on")))]

end XcItem

end Verif.Spec
