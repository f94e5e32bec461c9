import Verif.Spec.Atom
import Verif.Spec.Header
import Verif.Spec.CastepRows
/-
Tables with a vector for each atom: positions, velocities, forces.
-/
namespace Verif.Spec
open Verif

/-- A vector for an atom: species, number of the atom in its species, components. -/
structure AtomVec where
  name : AtomName
  idx : Str
  x : Numeral
  y : Numeral
  z : Numeral
  deriving DecidableEq

namespace AtomVec

/-- A remark after a component, such as `(cons'd)` or `(mixed)`. -/
def Remark (t : Str) : Prop :=
  t = [] ∨ ∃ g s, t = g ++ c!"(" :: (s ++ [c!")"]) ∧ Blank g ∧ s ≠ [] ∧ c!")" ∉ s

/-- A gap between two words. -/
def Gap (g : Str) : Prop := Blank g ∧ g ≠ []

instance (g : Str) : Decidable (Gap g) := inferInstanceAs (Decidable (Blank g ∧ g ≠ []))

/-- Text before the name: without capital letters, and not ending inside a word. -/
def Lead (p : Str) : Prop := (∀ c ∈ p, ¬ (65 ≤ c ∧ c ≤ 90)) ∧ ∀ c, p.getLast? = some c → isWord c = false

/-- Text after the last component: nothing, or it starts with a blank. -/
def Tail (t : Str) : Prop := ∀ c, t.head? = some c → isSpace c = true

/-- The line of an atom, with remarks `n1`, `n2` and `n3` after the components. -/
def Parts (l : Str) (a : AtomVec) (n1 n2 n3 : Str) : Prop :=
  ∃ p g0 g1 g2 g3 t, l = p ++ (a.name.text ++ (g0 ++ (a.idx ++ (g1 ++ (a.x.text ++ (n1 ++ (g2 ++ (a.y.text ++ (n2 ++
      (g3 ++ (a.z.text ++ (n3 ++ t)))))))))))) ∧
    Lead p ∧ Gap g0 ∧ Gap g1 ∧ Gap g2 ∧ Gap g3 ∧ Tail t

/-- The line of an atom. -/
def Line (l : Str) (a : AtomVec) : Prop := Parts l a [] [] []

/-- The line of an atom; there may be remarks after the components. -/
def ForceLine (l : Str) (a : AtomVec) : Prop :=
  ∃ n1 n2 n3, Remark n1 ∧ Remark n2 ∧ Remark n3 ∧ Parts l a n1 n2 n3

/-- Well-formed name and number, and well-formed components in range. -/
def Ok (a : AtomVec) : Prop :=
  a.name.Valid ∧ Numeral.AllDigits a.idx ∧ a.idx ≠ [] ∧ ∀ n ∈ [a.x, a.y, a.z], n.Valid ∧ n.InRange

instance (a : AtomVec) : Decidable a.Ok := inferInstanceAs (Decidable (_ ∧ _ ∧ _ ∧ ∀ n ∈ _, _))

/-- The atom as the parser names it. -/
def key (a : AtomVec) : Key := .tup [.str a.name.text, .int (Numeral.nat a.idx)]

/-- What the table says about the atom. -/
def entry (rd : Numeral → F64) (a : AtomVec) : Key × PyVal :=
  (a.key, .tuple ([a.x, a.y, a.z].map fun n => .float (rd n)))

end AtomVec

/-- The title of a block of forces: `*** Constrained Symmetrised Forces ***`. -/
def ForceTitle (l : Str) (name : Str) : Prop :=
  ∃ g1 s1 g2 f g3 s2 g4, l = g1 ++ (s1 ++ (g2 ++ (name ++ (f ++ (g3 ++ (s2 ++ g4)))))) ∧
    (∀ g ∈ [g1, g2, g3, g4], Blank g) ∧ (∀ s ∈ [s1, s2], s ≠ [] ∧ ∀ c ∈ s, c = c!"*") ∧
    Str.lower f = py"forces" ∧ (∀ c ∈ name, isAlpha c = true ∨ c = c!" ") ∧ name.head? ≠ some (c!" ")

/-- The key of a block of forces with these words before `Forces`. -/
def forceKind (words : List Str) : Key :=
  .str (if words = [] then py"non_descript" else Str.join (py"_") (words.map Str.lower))

/-- A part of a header: an item of the usual kind, or a vector for an atom. -/
inductive HeadPart
  | item (i : HeadItem)
  | atom (a : AtomVec)
  deriving DecidableEq

namespace HeadPart

/-- The lines of a part. -/
def Lines (opt : Str) : HeadPart → List Str → Prop
  | .item i, ls => (∀ p, i ≠ .ion p) ∧ i.Lines opt ls
  | .atom a, ls => ∃ line, ls = [line] ∧ a.Line line ∧ ¬ IsCount line ∧ ¬ Occurs (py"Unit cell vectors") line ∧ a.Ok

/-- What a part adds to the result, apart from the atoms. -/
def entries (opt : Str) (rd : Numeral → F64) : HeadPart → List (Key × PyVal)
  | .item i => i.entries opt rd
  | .atom _ => []

/-- The atoms of a part. -/
def atoms (rd : Numeral → F64) : HeadPart → List (Key × PyVal)
  | .item _ => []
  | .atom a => [a.entry rd]

/-- The numbers of a part. -/
def nums : HeadPart → List Numeral
  | .item i => i.nums
  | .atom a => [a.x, a.y, a.z]

end HeadPart

/-- A header that lists atoms. -/
def atomHeader (opt : Str) (rd : Numeral → F64) (parts : List HeadPart) : Dict Key PyVal :=
  (Dict.ofList (parts.flatMap (HeadPart.entries opt rd))).set (.str (py"coords"))
    (.dict (Dict.ofList (parts.flatMap (HeadPart.atoms rd))))

end Verif.Spec
