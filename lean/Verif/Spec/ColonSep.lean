import Verif.Spec.AtomVec
import Verif.Spec.LineTables
import Verif.Spec.Params
import Verif.Spec.GenBlock
/-
Lines of values with names, `d: 1.2 f: 2.1`, in `hubbard_u` and `sedc_custom_params` blocks.
-/
namespace Verif.Spec
open Verif

/-- A value and its name. -/
structure ColonPair where
  key : Str
  val : Numeral
  deriving DecidableEq

namespace ColonPair

/-- Pairs one after the other, with blanks before and after the colons or without. -/
inductive Pairs : Str → List ColonPair → Prop
  | last {p : ColonPair} {g1 g2} : Blank g1 → Blank g2 → Pairs (p.key ++ (g1 ++ c!":" :: (g2 ++ p.val.text))) [p]
  | cons {p : ColonPair} {g1 g2 g s ps} : Blank g1 → Blank g2 → AtomVec.Gap g → Pairs s ps →
      Pairs (p.key ++ (g1 ++ c!":" :: (g2 ++ (p.val.text ++ (g ++ s))))) (p :: ps)

/-- Well-formed: the name begins with a letter and is one word without a colon; the number is in range and ends with a digit. -/
def Ok (p : ColonPair) : Prop :=
  p.key ≠ [] ∧ (∀ c, p.key.head? = some c → (65 ≤ c ∧ c ≤ 90) ∨ (97 ≤ c ∧ c ≤ 122)) ∧ (∀ c ∈ p.key, isSpace c = false ∧ c ≠ c!":") ∧
    p.val.Valid ∧ p.val.InRange ∧ ∀ c, p.val.text.getLast? = some c → 48 ≤ c ∧ c ≤ 57

/-- The entry of a pair, given how numbers are read. -/
def entry (rd : Numeral → F64) (p : ColonPair) : Key × PyVal := (.str p.key, OptValue.ofNumber rd p.val)

end ColonPair

/-- A line of a `sedc_custom_params` block: a species and its values. -/
structure SedcLine where
  spec : Str
  pairs : List ColonPair

namespace SedcLine

/-- The line. -/
def Line (l : Str) (x : SedcLine) : Prop :=
  ∃ g g' s, l = g ++ (x.spec ++ (g' ++ s)) ∧ Blank g ∧ AtomVec.Gap g' ∧ ColonPair.Pairs s x.pairs

/-- Well-formed: the species is one word that does not look like a closing line. -/
def Ok (x : SedcLine) : Prop :=
  x.spec ≠ [] ∧ (∀ c ∈ x.spec, isSpace c = false) ∧ x.spec.head? ≠ some (c!"%") ∧ ∀ p ∈ x.pairs, p.Ok

/-- The units of energy and distance in the result. -/
def units (e d : Str) : Key × PyVal := (.str (py"units"), .dict [(.str (py"energy"), .str e), (.str (py"distance"), .str d)])

end SedcLine

/-- The lines at the start of a `sedc_custom_params` block that name the units of energy and distance. -/
inductive SedcUnits : List Str → Str → Str → Prop
  | none : SedcUnits [] (py"eV") (py"Ang")
  | some {l e d} : Fields l [e, d] → SedcUnits [l] e d

/-- The lines at the start of a `hubbard_u` block that name the units. -/
inductive HubbardUnits : List Str → Str → Prop
  | none : HubbardUnits [] (py"eV")
  | some {g w} : Blank g → w ≠ [] → (∀ c ∈ w, isSpace c = false) → HubbardUnits [g ++ w] w

/-- A line of a `hubbard_u` block: a species, possibly the number of one of its atoms, and the values for its shells. -/
structure HubbardLine where
  spec : AtomName
  idx : Option Str
  pairs : List ColonPair

namespace HubbardLine

/-- The line. -/
inductive Line : Str → HubbardLine → Prop
  | one {x : HubbardLine} {i g g0 g1 s} : x.idx = some i → Blank g → AtomVec.Gap g0 → AtomVec.Gap g1 → ColonPair.Pairs s x.pairs →
      Line (g ++ (x.spec.text ++ (g0 ++ (i ++ (g1 ++ s))))) x
  | all {x : HubbardLine} {g g0 s} : x.idx = none → Blank g → AtomVec.Gap g0 → ColonPair.Pairs s x.pairs →
      Line (g ++ (x.spec.text ++ (g0 ++ s))) x

/-- Well-formed: the species has no label in brackets, the number is a number, shells are named with small letters. -/
def Ok (x : HubbardLine) : Prop :=
  x.spec.Valid ∧ x.spec.label = none ∧ (∀ i, x.idx = some i → i ≠ [] ∧ Numeral.AllDigits i) ∧
    ∀ p ∈ x.pairs, p.Ok ∧ ∀ c ∈ p.key, ¬ (65 ≤ c ∧ c ≤ 90)

/-- The key of the entry: the species, or the species and the number. -/
def key (x : HubbardLine) : Key :=
  match x.idx with
  | some i => .tup [.str x.spec.text, .int (Numeral.nat i)]
  | none => .str x.spec.text

end HubbardLine

end Verif.Spec
