import Verif.Spec.LineTables
/-
Internal coordinates in a `.castep` file: constraints, and the tables of delocalised internals.
-/
namespace Verif.Spec
open Verif

/-- Numbers one after the other, with text between them, or directly one after the other if the second has a sign. -/
inductive Tight : List Numeral → Str → Prop
  | last (n : Numeral) (t : Str) : Trailing t → Tight [n] (n.text ++ t)
  | gap (n : Numeral) (g : Str) (ns : List Numeral) (s : Str) : Between g → Tight ns s → Tight (n :: ns) (n.text ++ (g ++ s))
  | tight (n m : Numeral) (ns : List Numeral) (s : Str) : n.IsInt → m.sign ≠ none → Tight (m :: ns) s → Tight (n :: m :: ns) (n.text ++ s)

/-- An end of an internal coordinate: the number of the atom, and the cell it is in. -/
structure CoordEnd where
  atom : Numeral
  image : List Numeral

namespace CoordEnd

def Ok (e : CoordEnd) : Prop := ∀ n ∈ e.atom :: e.image, n.Valid ∧ n.IsInt

/-- The text of it, up to the closing bracket. -/
def Text (e : CoordEnd) (s : Str) : Prop := 41 ∉ s ∧ ∃ lead t, s = lead ++ t ∧ Leading lead ∧ Tight (e.atom :: e.image) t

def entry (e : CoordEnd) : Key × PyVal := (.int (intOf e.atom), .tuple (e.image.map fun n => .int (intOf n)))

end CoordEnd

/-- A constraint: its type, the value in the third column and the one in the fourth, if it is not `Satisfied`, and the ends. -/
structure Constraint where
  typ : Str
  first : Numeral
  second : Option Numeral
  ends : List CoordEnd

namespace Constraint

def Ok (c : Constraint) : Prop :=
  c.typ ∈ [py"Bond", py"Angle", py"Torsion"] ∧ (∀ n ∈ c.first :: c.second.toList, n.Valid ∧ n.InRange) ∧ ∀ e ∈ c.ends, e.Ok

/-- The row: words, of which those from the fifth on, with single spaces, are the ends, each with a closing bracket. -/
def Line (l : Str) (c : Constraint) : Prop :=
  ∃ num defs texts tail, Fields l (num :: c.typ :: c.first.text :: (c.second.elim (py"Satisfied") Numeral.text) :: defs) ∧
    Str.join (py" ") defs = texts.flatMap (fun s => s ++ py")") ++ tail ∧ List.Forall₂ CoordEnd.Text c.ends texts ∧
    ∀ ch ∈ tail, ch ≠ 41 ∧ ¬ (48 ≤ ch ∧ ch ≤ 57)

/-- The entry of the report, with these ends. A constraint that is satisfied has no target. -/
def report (rd : Numeral → F64) (c : Constraint) (ends : List (Key × PyVal)) : PyVal :=
  .dict [(.str (py"type"), .str c.typ),
    (.str (py"target"), match c.second with | none => .none | some _ => .float (rd c.first)),
    (.str (py"current"), match c.second with | none => .float (rd c.first) | some n => .float (rd n)),
    (.str (py"satisfied"), .bool c.second.isNone), (.str (py"constraints"), .dict ends)]

end Constraint

/-! ### Delocalised internals -/

/-- A line of the table: the primitive a constraint is, the number of primitives of some kind. -/
inductive DelocItem where
  | mapping (con prim : Numeral)
  | total (name : Str) (n : Numeral)
  | other

namespace DelocItem

def Line : DelocItem → Str → Prop
  | mapping con prim, l => (∃ r, l = py" constraint" ++ r) ∧ HasNumbers l [con, prim]
  | total name n, l => (∃ r, l = py"Total number of primitive" ++ r) ∧ ∃ ws, Fields l (py"Total" :: py"number" :: py"of" :: py"primitive" :: (name ++ py":") :: n.text :: ws)
  | other, l => ¬ (∃ r, l = py" constraint" ++ r) ∧ ¬ ∃ r, l = py"Total number of primitive" ++ r

def Ok : DelocItem → Prop
  | mapping a b => (a.Valid ∧ a.IsInt) ∧ b.Valid ∧ b.IsInt
  | total name n => (name ≠ [] ∧ 58 ∉ name) ∧ n.Valid ∧ n.IsInt
  | other => True

/-- What the lines say about constraints. -/
def maps : DelocItem → Option (Key × PyVal)
  | mapping a b => some (.int (intOf a), .int (intOf b))
  | _ => none

/-- What they say about numbers of primitives. -/
def counts : DelocItem → Option (Key × PyVal)
  | total name n => some (.str (py"num_" ++ name), .int (intOf n))
  | _ => none

end DelocItem

/-- The texts looked for in the report on the active space, and the names of the numbers. -/
def ACTIVE : List (Str × Str) :=
  [(py"active space", py"active_space_size"), (py"degrees", py"num_dof"), (py"primitive", py"num_primitive_internals")]

/-- What a line says about the active space. -/
def ActLine (l : Str) (es : List (Key × PyVal)) : Prop :=
  ((∀ p ∈ ACTIVE, ¬ Occurs p.1 l) ∧ es = []) ∨
  ∃ (n : Numeral) (ns : List Numeral) (ps : List (Str × Str)), HasNumbers l (n :: ns) ∧ (∀ m ∈ n :: ns, m.Valid) ∧ n.IsInt ∧ ps.Sublist ACTIVE ∧ (∀ p ∈ ACTIVE, p ∈ ps ↔ Occurs p.1 l) ∧
    es = ps.map fun p => (.str p.2, .int (intOf n))

end Verif.Spec
