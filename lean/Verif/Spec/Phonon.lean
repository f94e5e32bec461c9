import Verif.Spec.PhononDos
/-
`.phonon` files.
-/
namespace Verif.Spec
open Verif

/-- The text between two columns. -/
def column (l : Str) (a b : Nat) : Str := (l.take b).drop a

/-- A column with a number, or an empty one. -/
def OptColumn (s : Str) : Option Numeral → Prop
  | some n => Fields s [n.text]
  | none => Blank s

/-- A branch: its frequency and, where printed, its infrared and Raman activity. -/
structure PhBranch where
  freq : Numeral
  ir : Option Numeral
  raman : Option Numeral
  deriving DecidableEq

namespace PhBranch

/-- The printed line. -/
def Line (l : Str) (b : PhBranch) : Prop :=
  Fields (column l 8 23) [b.freq.text] ∧ OptColumn (column l 31 46) b.ir ∧ OptColumn (column l 55 70) b.raman

def nums (b : PhBranch) : List Numeral := b.freq :: (b.ir.toList ++ b.raman.toList)

end PhBranch

/-- A q-point: position, weight, direction (if any), branches, and for each mode and ion a complex vector. -/
structure PhPoint where
  q : List Numeral
  weight : Numeral
  dir : List Numeral
  branches : List PhBranch
  vecs : List (List (Numeral × Numeral))
  deriving DecidableEq

/-- The line of the vector of an ion: mode, ion, and real and imaginary parts. -/
def VecLine (l : Str) (r : List (Numeral × Numeral)) : Prop :=
  ∃ mode ion, Fields l (mode :: ion :: r.flatMap fun p => [p.1.text, p.2.text])

/-- The text written for a count in four columns. -/
def right4 (w : Str) : Str := List.replicate (4 - w.length) 32 ++ w

/-- The start of the line of the last mode and ion. -/
def lastMark (branches ions : Nat) : Str := right4 (natStr branches) ++ right4 (natStr ions)

/-- Among these lines the text is in the last one only. -/
def OnlyLast (s : Str) (ls : List Str) : Prop := ∃ init last, ls = init ++ [last] ∧ Occurs s last ∧ ∀ l ∈ init, ¬ Occurs s l

namespace PhPoint

/-- The printed lines. -/
def Lines (B N : Nat) (p : PhPoint) (ls : List Str) : Prop :=
  ∃ qline rows title mline vrows, ls = qline :: (rows ++ title :: mline :: vrows) ∧
    Occurs (py"q-pt") qline ∧ ¬ Occurs (py"BEGIN header") qline ∧
    (∃ a b, Fields qline (a :: b :: (p.q ++ p.weight :: p.dir).map Numeral.text)) ∧
    List.Forall₂ PhBranch.Line rows p.branches ∧ (∀ l ∈ rows, ¬ Occurs (py"Phonon Eigenvectors") l) ∧
    Occurs (py"Phonon Eigenvectors") title ∧
    Occurs (py"Mode Ion") mline ∧ ¬ Occurs (py"BEGIN header") mline ∧ ¬ Occurs (py"q-pt") mline ∧
    List.Forall₂ VecLine vrows p.vecs ∧ OnlyLast (lastMark B N) vrows

def nums (p : PhPoint) : List Numeral :=
  p.weight :: (p.q ++ (p.dir ++ (p.branches.flatMap PhBranch.nums ++ p.vecs.flatten.flatMap fun z => [z.1, z.2])))

/-- Well-formed numbers, as many as the header says; a kind of activity is printed for all branches or for none. -/
def Ok (B N : Nat) (p : PhPoint) : Prop :=
  p.q.length = 3 ∧ (∀ n ∈ p.nums, n.Valid ∧ n.InRange) ∧ p.branches.length = B ∧ p.vecs.length = B * N ∧
  ((∀ b ∈ p.branches, b.ir = none) ∨ ∀ b ∈ p.branches, b.ir ≠ none) ∧
  ((∀ b ∈ p.branches, b.raman = none) ∨ ∀ b ∈ p.branches, b.raman ≠ none)

instance (B N : Nat) (p : PhPoint) : Decidable (p.Ok B N) :=
  inferInstanceAs (Decidable (_ ∧ (∀ n ∈ _, _) ∧ _ ∧ _ ∧ ((∀ b ∈ _, _) ∨ ∀ b ∈ _, _) ∧ ((∀ b ∈ _, _) ∨ ∀ b ∈ _, _)))

/-- A column of values, left out when there are none. -/
def col (k : Str) (vs : List PyVal) : List (Key × PyVal) := if vs = [] then [] else [(.str k, .list vs)]

/-- What is reported. -/
def entry (rd fl : Numeral → F64) (p : PhPoint) : PyVal :=
  .dict ([(.str (py"qpt"), .tuple (p.q.map fun n => .float (rd n))), (.str (py"weight"), .float (fl p.weight))] ++
    ((if p.dir = [] then [] else [(.str (py"dir"), .tuple (p.dir.map fun n => .float (rd n)))]) ++
    (col (py"eigenvalues") (p.branches.map fun b => .float (fl b.freq)) ++
    (col (py"ir_intensity") (p.branches.filterMap fun b => b.ir.map fun n => .float (fl n)) ++
    (col (py"raman_intensity") (p.branches.filterMap fun b => b.raman.map fun n => .float (fl n)) ++
    col (py"eigenvectors") (p.vecs.map fun r => .tuple (r.map fun z => .complex (rd z.1) (rd z.2))))))))

end PhPoint

/-- A part of the file after its header. -/
inductive PhPart
  | point (p : PhPoint)
  | other

namespace PhPart

def Lines (B N : Nat) : PhPart → List Str → Prop
  | .point p, ls => p.Lines B N ls
  | .other, ls => StartsNone [py"BEGIN header", py"q-pt", py"Mode Ion"] ls ∧ ls.length = 1

end PhPart

/-- The last count of this name in a header. -/
def countOf (name : Str) (items : List HeadItem) : Option Int :=
  (items.filterMap fun | .count key n => if Str.join (py" ") key = name then some (intOf n) else none | _ => none).getLast?

/-- The header: numbers of branches and ions, and at least one line that is none of the known ones (the first). -/
def PhHead (B N : Nat) (items : List HeadItem) : Prop :=
  countOf (py"branches") items = some (B : Int) ∧ countOf (py"ions") items = some (N : Int) ∧
  (∃ nums, HeadItem.note true nums ∈ items) ∧
  (∀ i ∈ items, ∀ key n, i = .count key n → Str.join (py" ") key ≠ py"qpts" ∧ Str.join (py" ") key ≠ []) ∧
  ∀ i ∈ items, ∀ n ∈ i.nums, n.Valid ∧ n.InRange

/-- The q-points of a file. -/
def pointsOf (parts : List PhPart) : List PhPoint := parts.filterMap fun | .point p => some p | .other => none

/-- What the file says: the header without the lines that are not known, and the q-points. -/
def phononOf (rd fl : Numeral → F64) (items : List HeadItem) (parts : List PhPart) : Dict Key PyVal :=
  addAll ((headerOf [] rd items).erase (.str [])) (py"qpts") ((pointsOf parts).map (PhPoint.entry rd fl))

end Verif.Spec
