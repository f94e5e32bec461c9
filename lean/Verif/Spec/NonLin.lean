import Verif.Spec.AtomVec
import Verif.Spec.LineTables
import Verif.Spec.XcDef
/-
The constraints on distances and angles of a `.cell` file.
-/
namespace Verif.Spec
open Verif

/-- A line of `nonlinear_constraints`: the kind of the constraint and its atoms, each with the cell it is in. -/
structure NonLin where
  kind : Str
  atoms : List AtomVec
  deriving DecidableEq

namespace NonLin

/-- Atoms one after the other: species, number of the atom and three numbers each. -/
inductive Atoms : Str → List AtomVec → Prop
  | last {a : AtomVec} {g0 g1 g2 g3} : AtomVec.Gap g0 → AtomVec.Gap g1 → AtomVec.Gap g2 → AtomVec.Gap g3 →
      Atoms (a.name.text ++ (g0 ++ (a.idx ++ (g1 ++ (a.x.text ++ (g2 ++ (a.y.text ++ (g3 ++ a.z.text)))))))) [a]
  | cons {a : AtomVec} {g0 g1 g2 g3 g s as} : AtomVec.Gap g0 → AtomVec.Gap g1 → AtomVec.Gap g2 → AtomVec.Gap g3 → AtomVec.Gap g → Atoms s as →
      Atoms (a.name.text ++ (g0 ++ (a.idx ++ (g1 ++ (a.x.text ++ (g2 ++ (a.y.text ++ (g3 ++ (a.z.text ++ (g ++ s)))))))))) (a :: as)

/-- The line. -/
def Line (l : Str) (c : NonLin) : Prop :=
  ∃ g g' s, l = g ++ (c.kind ++ (g' ++ s)) ∧ Blank g ∧ AtomVec.Gap g' ∧ Atoms s c.atoms

/-- Well-formed: the kind is a word, cells are given by whole numbers. -/
def Ok (c : NonLin) : Prop :=
  (c.kind ≠ [] ∧ (∀ x ∈ c.kind, isSpace x = false) ∧ c.kind.head? ≠ some (c!"%")) ∧
    ∀ a ∈ c.atoms, a.Ok ∧ ∀ n ∈ [a.x, a.y, a.z], n.IsInt

instance (c : NonLin) : Decidable c.Ok := inferInstanceAs (Decidable ((_ ∧ (∀ x ∈ _, _) ∧ _) ∧ ∀ a ∈ _, _ ∧ ∀ n ∈ _, _))

/-- An atom and the cell it is in. -/
def entry (a : AtomVec) : Key × PyVal := (a.key, .tuple [.int (intOf a.x), .int (intOf a.y), .int (intOf a.z)])

/-- What is reported of a constraint, given the dictionary of its atoms. -/
def report (c : NonLin) (d : List (Key × PyVal)) : PyVal := .dict [(.str (py"key"), .str c.kind), (.str (py"atoms"), .dict d)]

end NonLin

end Verif.Spec
