import Verif.Spec.AtomTables
import Verif.Spec.LineTables
/-
The report on symmetry and constraints in a `.castep` file.
-/
namespace Verif.Spec
open Verif

/-- A symmetry operation: its matrix, its displacement and, for the labels of species, the numbers of the atoms. -/
structure SymOp where
  rot : List (List Numeral)
  disp : List Numeral
  rel : List (Str × List Numeral)

/-- What the lines say. -/
inductive SymItem where
  | deviation (x : Numeral)
  | count (name : Str) (n : Numeral)
  | pointGroup (id : Numeral) (sch hm full : List Str)
  | spaceGroup (id : Numeral) (int hall : List Str)
  | text (key : Str) (value : List Str)
  | op (o : SymOp)
  | supercell (n : Numeral)
  | centre (free : Bool)
  | cell (ns : List Numeral)
  | other

namespace SymItem

/-- `a=b` with one equals sign; `a` is the name. -/
def Eqn (l name b : Str) : Prop := ∃ a, l = a ++ 61 :: b ∧ 61 ∉ a ∧ 61 ∉ b ∧ KeyName a name

/-- Words separated by single blanks. -/
def phrase (ws : List Str) : Str := Str.join (py" ") ws

/-- Apart from repeated blanks, the text is this one. -/
def Reads (b t : Str) : Prop := ∃ ws, Fields b ws ∧ phrase ws = t

/-- Not the heading of a rotation: the word is missing, or the line does not begin with a number. -/
def NotRotation (l : Str) : Prop := ¬ Occurs (py"rotation") l ∨ NoNumberFirst l

/-- No equals sign and no rotation. -/
def Plain (l : Str) : Prop := 61 ∉ l ∧ NotRotation l

/-- The atoms of a label, `Se:  1  2  3`. -/
def Related (r : Str × List Numeral) (l : Str) : Prop :=
  ∃ g b, l = g ++ (r.1 ++ 58 :: b) ∧ Blank g ∧ 58 ∉ b ∧ Fields b (r.2.map Numeral.text)

def LabelOk (w : Str) : Prop := w ≠ [] ∧ (∀ c ∈ w, isSpace c = false) ∧ 58 ∉ w

/-- The lines of a symmetry operation before the related atoms. -/
def OpHead (o : SymOp) (ls : List Str) : Prop :=
  ∃ title r1 r2 r3 t2 d t3 num more, ls = [title, r1, r2, r3, t2, d, t3] ∧ 61 ∉ title ∧ Fields title (num :: py"rotation" :: more) ∧
    Numeral.AllDigits num ∧ List.Forall₂ HasNumbers [r1, r2, r3] o.rot ∧ HasNumbers d o.disp

def Lines : SymItem → List Str → Prop
  | deviation x, ls => ∃ l b more, ls = [l] ∧ Eqn l (py"maximum_deviation_from_symmetry") b ∧ Fields b (x.text :: more)
  | count name n, ls => ∃ l b, ls = [l] ∧ Eqn l (py"number_of_" ++ name) b ∧ Fields b [n.text]
  | pointGroup id sch hm full, ls => ∃ l b, ls = [l] ∧ Eqn l (py"point_group_of_crystal") b ∧
      Reads b (id.text ++ 58 :: 32 :: (phrase sch ++ 44 :: 32 :: (phrase hm ++ 44 :: 32 :: phrase full)))
  | spaceGroup id int hall, ls => ∃ l b, ls = [l] ∧ Eqn l (py"space_group_of_crystal") b ∧
      Reads b (id.text ++ 58 :: 32 :: (phrase int ++ 44 :: 32 :: phrase hall))
  | text key value, ls => ∃ l b, ls = [l] ∧ Eqn l key b ∧ Fields b value
  | op o, ls => ∃ head rels last, ls = head ++ (rels ++ [last]) ∧ OpHead o head ∧ List.Forall₂ Related o.rel rels ∧ Blank last
  | supercell n, ls => ∃ l more, ls = [l] ∧ Plain l ∧ Occurs (py"Cell is a supercell containing") l ∧ (∀ m ∈ more, m.Valid) ∧ HasNumbers l (n :: more)
  | centre free, ls => ∃ l, ls = [l] ∧ Plain l ∧ ¬ Occurs (py"Cell is a supercell containing") l ∧ Occurs (py"Centre of mass") l ∧
      (free = true ↔ Occurs (py"NOT") l)
  | cell ns, ls => ∃ l, ls = [l] ∧ Plain l ∧ ¬ Occurs (py"Cell is a supercell containing") l ∧ ¬ Occurs (py"Centre of mass") l ∧
      ¬ Occurs (py"constraints.....") l ∧ Occurs (py"Cell constraints are:") l ∧ HasNumbers l ns
  | other, ls => ∃ l, ls = [l] ∧ Plain l ∧ ¬ Occurs (py"Cell is a supercell containing") l ∧ ¬ Occurs (py"Centre of mass") l ∧
      ¬ Occurs (py"constraints.....") l ∧ ¬ Occurs (py"Cell constraints are:") l

/-- A name of a group: words without commas. -/
def PhraseOk (ws : List Str) : Prop := ws ≠ [] ∧ ∀ w ∈ ws, w ≠ [] ∧ ∀ c ∈ w, isSpace c = false ∧ c ≠ 44

def IsWhole (n : Numeral) : Prop := n.Valid ∧ n.IsInt
def IsReal (n : Numeral) : Prop := n.Valid ∧ n.InRange

def OpOk (o : SymOp) : Prop := (∀ r ∈ o.rot, ∀ n ∈ r, IsReal n) ∧ (∀ n ∈ o.disp, IsReal n) ∧ ∀ r ∈ o.rel, LabelOk r.1 ∧ ∀ n ∈ r.2, IsWhole n

def Ok : SymItem → Prop
  | deviation x => IsReal x
  | count _ n => IsWhole n
  | pointGroup id a b c => IsWhole id ∧ PhraseOk a ∧ PhraseOk b ∧ PhraseOk c
  | spaceGroup id a b => IsWhole id ∧ PhraseOk a ∧ PhraseOk b
  | text key _ => key ≠ py"maximum_deviation_from_symmetry" ∧ ¬ Occurs (py"number_of") key ∧ ¬ Occurs (py"point_group") key ∧
      ¬ Occurs (py"space_group") key ∧ key ≠ py"symop"
  | op o => OpOk o
  | supercell n => IsWhole n
  | cell ns => ∀ n ∈ ns, IsWhole n
  | _ => True

def floats (rd : Numeral → F64) (ns : List Numeral) : PyVal := .tuple (ns.map fun n => .float (rd n))

/-- A symmetry operation as reported. -/
def opInfo (rd : Numeral → F64) (o : SymOp) : PyVal :=
  .dict [(.str (py"rotation"), .list (o.rot.map (floats rd))),
    (.str (py"symmetry_related"), .list (o.rel.flatMap fun r => r.2.map fun n => .tuple [.str r.1, .int (intOf n)])),
    (.str (py"displacement"), floats rd o.disp)]

/-- The operations. -/
def ops (rd : Numeral → F64) (items : List SymItem) : List PyVal :=
  items.filterMap fun | op o => some (opInfo rd o) | _ => none

open scoped Classical in
/-- What is reported under `symmetries`, given all the operations. -/
noncomputable def symmetry (fl : Numeral → F64) (all : List PyVal) : SymItem → Option (Key × PyVal)
  | deviation x => some (.str (py"max_deviation"), .float (fl x))
  | count name n => if Occurs (py"constraints") name then none else some (.str (py"num_" ++ name), .int (intOf n))
  | pointGroup id a b c => some (.str (py"point_group"), .dict [(.str (py"id"), .int (intOf id)), (.str (py"schoenflies"), .str (phrase a)),
      (.str (py"hermann_mauguin"), .str (phrase b)), (.str (py"hermann_mauguin_full"), .str (phrase c))])
  | spaceGroup id a b => some (.str (py"space_group"), .dict [(.str (py"id"), .int (intOf id)), (.str (py"international"), .str (phrase a)),
      (.str (py"hall"), .str (phrase b))])
  | text key value => if Occurs (py"constraints") key then none else some (.str key, .str (phrase value))
  | op _ => some (.str (py"symop"), .list all)
  | supercell n => some (.str (py"n_primitives"), .int (intOf n))
  | _ => none

open scoped Classical in
/-- What is reported under `constraints`. -/
noncomputable def constraint : SymItem → Option (Key × PyVal)
  | count name n => if Occurs (py"constraints") name then some (.str (py"num_" ++ name), .int (intOf n)) else none
  | text key value => if Occurs (py"constraints") key then some (.str key, .str (phrase value)) else none
  | centre free => some (.str (py"com_constrained"), .bool !free)
  | cell ns => some (.str (py"cell_constraints"), .tuple (ns.map fun n => .int (intOf n)))
  | _ => none

/-- A line with the atoms of a species with a tag, `H:D:  1  2`. -/
def Tagged (l : Str) : Prop := ∃ g a t b, l = g ++ (a ++ 58 :: (t ++ 58 :: b)) ∧ Blank g ∧ LabelOk a

end SymItem

end Verif.Spec
