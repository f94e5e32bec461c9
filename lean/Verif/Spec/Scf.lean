import Verif.Spec.Header
import Verif.Spec.CastepRows
/-
The table of the electronic minimisation in a `.castep` file.
-/
namespace Verif.Spec
open Verif

/-- A word without digits. -/
def Wordy (w : Str) : Prop := ∀ c ∈ w, ¬ (48 ≤ c ∧ c ≤ 57)

instance (w : Str) : Decidable (Wordy w) := inferInstanceAs (Decidable (∀ c ∈ w, _))

/-- The first word of a row: `Initial` or the number of the cycle. -/
def CycleName (w : Str) : Prop := w = py"Initial" ∨ Numeral.AllDigits w ∧ w ≠ []

instance (w : Str) : Decidable (CycleName w) := inferInstanceAs (Decidable (_ ∨ _ ∧ _))

/-- A row of the table.  Without smearing there is no Fermi energy; the first row has no gain. -/
structure ScfRow where
  head : Str
  energy : Numeral
  fermi : Option Numeral
  gain : Option Numeral
  time : Numeral
  deriving DecidableEq

namespace ScfRow

def nums (r : ScfRow) : List Numeral := r.energy :: (r.fermi.toList ++ (r.gain.toList ++ [r.time]))

def Ok (r : ScfRow) : Prop := CycleName r.head ∧ ∀ n ∈ r.nums, n.Valid ∧ n.InRange

instance (r : ScfRow) : Decidable r.Ok := inferInstanceAs (Decidable (_ ∧ ∀ n ∈ _, _))

/-- The printed row; words such as `<-- SCF` may follow. -/
def Line (r : ScfRow) (l : Str) : Prop :=
  ∃ more, Fields l (r.head :: (r.nums.map Numeral.text ++ more)) ∧ ∀ w ∈ more, Wordy w

def optFloat (rd : Numeral → F64) : Option Numeral → PyVal
  | some n => .float (rd n)
  | none => .none

/-- What the row says. -/
def entry (rd : Numeral → F64) (r : ScfRow) : List (Key × PyVal) :=
  [(.str (py"energy"), .float (rd r.energy)), (.str (py"fermi_energy"), optFloat rd r.fermi),
   (.str (py"energy_gain"), optFloat rd r.gain), (.str (py"time"), .float (rd r.time))]

end ScfRow

/-- What is printed between the rows. -/
inductive ScfItem
  /-- `Density was not mixed in this cycle` -/
  | unmixed
  /-- `Norm of density residual is ..` -/
  | residual (x : Numeral) (more : List Numeral)
  /-- the energy of a constraint -/
  | constraint (x : Numeral) (more : List Numeral)
  /-- `Correcting PBC dipole-dipole ..: dE = ..` -/
  | dipole (x : Numeral) (more : List Numeral)
  /-- `no. bands in each block= ..` -/
  | bands (n : Numeral) (more : List Numeral)
  /-- `Kinetic eigenvalue # i = x` -/
  | kinetic (i x : Numeral) (more : List Numeral)
  /-- lines `eigenvalue i init= .. fin= .. change= ..` and `Checking convergence criteria` -/
  | eigens (rows : List (Numeral × Numeral × Numeral × Numeral))
  /-- `name = x eV` -/
  | contrib (words : List Str) (x : Numeral)
  /-- any other text -/
  | other
  deriving DecidableEq

namespace ScfItem

/-- The texts looked for, in this order. -/
def marks : List Str :=
  [py"Density was not mixed", py"Norm of density", py"constraint energy", py"Correcting PBC dipole-dipole", py"no. bands",
   py"Kinetic eigenvalue"]

/-- The line has none of the first `k` texts. -/
def NoMark (k : Nat) (l : Str) : Prop := ∀ s ∈ marks.take k, ¬ Occurs s l

/-- The line starts like a row. -/
def RowStart (l : Str) : Prop :=
  ∃ g r, l = g ++ r ∧ Blank g ∧ ((∃ s, r = py"Initial" ++ s) ∨ ∃ c s, r = c :: s ∧ 48 ≤ c ∧ c ≤ 57)

/-- Not a row: the line does not start like one, or fewer than three of its words have digits. -/
def NoRow (l : Str) : Prop := ¬ RowStart l ∨ Plain l

/-- The line has the text at place `k` but none before, and the numbers. -/
def Marked (k : Nat) (l : Str) (ns : List Numeral) : Prop :=
  NoRow l ∧ NoMark k l ∧ (∀ s ∈ marks[k]?, Occurs s l) ∧ HasNumbers l ns

/-- Not one of the lines above. -/
def Unmarked (l : Str) : Prop := NoRow l ∧ NoMark 6 l

/-- The line of an eigenvalue. -/
def EigenLine (l : Str) (r : Numeral × Numeral × Numeral × Numeral) : Prop :=
  Unmarked l ∧ (∃ g ds g' t, l = py"eigenvalue" ++ (g ++ (ds ++ (g' ++ (py"init=" ++ t)))) ∧ Blank g ∧ Blank g' ∧ Numeral.AllDigits ds ∧ ds ≠ []) ∧
  HasNumbers l [r.1, r.2.1, r.2.2.1, r.2.2.2]

/-- Not a line of an eigenvalue. -/
def NoEigen (l : Str) : Prop := ¬ ∃ t, l = py"eigenvalue" ++ t

/-- The character may be part of the name of a contribution. -/
def NameChar (c : Nat) : Prop := isAlnum c = true ∨ c ∈ py"() -"

instance (c : Nat) : Decidable (NameChar c) := inferInstanceAs (Decidable (_ ∨ _))

/-- `name = x eV`, possibly with `+` or `(` before. -/
def ContribLine (l : Str) (words : List Str) (x : Numeral) : Prop :=
  ∃ p name g t, l = p ++ (name ++ (c!"=" :: (g ++ (x.text ++ (py" eV" ++ t))))) ∧ p ∈ [[], py"+", py"("] ∧
    name ≠ [] ∧ (∀ c ∈ name, NameChar c) ∧ (p = [] → name.head? ≠ some (c!"(")) ∧ Blank g ∧ g ≠ [] ∧
    Fields (name.map fun c => if isAlnum c then c else 32) words

/-- The printed lines. -/
def Lines : ScfItem → List Str → Prop
  | .unmixed, ls => ∃ l, ls = [l] ∧ NoRow l ∧ Occurs (py"Density was not mixed") l
  | .residual x more, ls => ∃ l, ls = [l] ∧ Marked 1 l (x :: more)
  | .constraint x more, ls => ∃ l, ls = [l] ∧ Marked 2 l (x :: more)
  | .dipole x more, ls => ∃ l, ls = [l] ∧ Marked 3 l (x :: more)
  | .bands n more, ls => ∃ l, ls = [l] ∧ Marked 4 l (n :: more)
  | .kinetic i x more, ls => ∃ l, ls = [l] ∧ Marked 5 l (i :: x :: more)
  | .eigens rows, ls => ∃ es l, ls = es ++ [l] ∧ List.Forall₂ EigenLine es rows ∧ Unmarked l ∧ NoEigen l ∧
      Occurs (py"Checking convergence criteria") l
  | .contrib words x, ls => ∃ l, ls = [l] ∧ Unmarked l ∧ NoEigen l ∧ ¬ Occurs (py"Checking convergence criteria") l ∧
      ContribLine l words x
  | .other, ls => ∃ l, ls = [l] ∧ Unmarked l ∧ NoEigen l ∧ ¬ Occurs (py"Checking convergence criteria") l ∧ ¬ Occurs (py" eV") l

/-- All numbers. -/
def nums : ScfItem → List Numeral
  | .residual x more | .constraint x more | .dipole x more | .bands x more => x :: more
  | .kinetic i x more => i :: x :: more
  | .eigens rows => rows.flatMap fun r => [r.1, r.2.1, r.2.2.1, r.2.2.2]
  | .contrib _ x => [x]
  | _ => []

def Ok (i : ScfItem) : Prop := (∀ n ∈ i.nums, n.Valid ∧ n.InRange) ∧ match i with | .bands n _ => n.IsInt | _ => True

/-- What the item says about the row above it. -/
def note (rd : Numeral → F64) : ScfItem → List (Key × PyVal)
  | .unmixed => [(.str (py"density_residual"), .none)]
  | .residual x _ => [(.str (py"density_residual"), .float (rd x))]
  | .constraint x _ => [(.str (py"constraint_energy"), .float (rd x))]
  | .dipole x _ => [(.str (py"dipole_corr_energy"), .float (rd x))]
  | _ => []

/-- The item is about the row below it. -/
def IsDetail : ScfItem → Prop
  | .unmixed | .residual .. | .constraint .. | .dipole .. => False
  | _ => True

/-- The name of a contribution. -/
def contribKey (words : List Str) : Str :=
  let k := Str.join (py"_") (words.map Str.lower)
  if k = py"apolar_corr_to_eigenvalue_sum" then py"apolar_correction"
  else if k = py"hubbard_u_correction_to_eigenvalu" then py"hubbard_u_correction"
  else if k = py"xc_correction_to_eigenvalue_sum" then py"xc_correction"
  else k

/-- The list under a key. -/
def listAt (d : Dict Key PyVal) (k : Str) : List PyVal :=
  match d.get? (.str k) with
  | some (.list l) => l
  | _ => []

/-- The dictionary under a key. -/
def dictAt (d : Dict Key PyVal) (k : Str) : Dict Key PyVal :=
  match d.get? (.str k) with
  | some (.dict e) => e
  | _ => []

/-- What the item says about the row below it. -/
def debug (rd fl : Numeral → F64) (d : Dict Key PyVal) : ScfItem → Dict Key PyVal
  | .bands n _ => d.set (.str (py"no_bands")) (.int (intOf n))
  | .kinetic _ x _ =>
    let d := if d.get? (.str (py"kinetic_eigenvalue")) = none then
      (d.set (.str (py"kinetic_eigenvalue")) (.list [])).set (.str (py"eigenvalue")) (.list []) else d
    d.set (.str (py"kinetic_eigenvalue")) (.list (listAt d (py"kinetic_eigenvalue") ++ [.float (rd x)]))
  | .eigens rows => d.set (.str (py"eigenvalue")) (.list (listAt d (py"eigenvalue") ++ [.list (rows.map fun r =>
      .dict [(.str (py"initial"), .float (fl r.2.1)), (.str (py"final"), .float (fl r.2.2.1)), (.str (py"change"), .float (fl r.2.2.2))])]))
  | .contrib words x => d.set (.str (py"contributions")) (.dict ((dictAt d (py"contributions")).set (.str (contribKey words)) (.float (fl x))))
  | _ => d

end ScfItem

/-- A row and what is printed after it. -/
structure ScfCycle where
  row : ScfRow
  items : List ScfItem

namespace ScfCycle

/-- The lines of the row and of the items. -/
def Lines (c : ScfCycle) (ls : List (List Str)) : Prop :=
  ∃ l rest, ls = [l] :: rest ∧ c.row.Line l ∧ List.Forall₂ ScfItem.Lines c.items rest

end ScfCycle

/-- Eigenvalues are printed after kinetic eigenvalues. -/
def EigensLast (items : List ScfItem) : Prop :=
  ∀ a rows b, items = a ++ .eigens rows :: b → ∃ i x more, ScfItem.kinetic i x more ∈ a

/-- The report of a row: its numbers, the details printed before it, and the notes printed after it. -/
def scfReport (rd fl : Numeral → F64) (before : List ScfItem) (c : ScfCycle) : PyVal :=
  let d := before.foldl (ScfItem.debug rd fl) []
  let r := ScfRow.entry rd c.row
  let r := if d = [] then r else r ++ [(.str (py"debug_info"), .dict d)]
  .dict ((c.items.flatMap (ScfItem.note rd)).foldl (fun e kv => Dict.set e kv.1 kv.2) r)

/-- The reports of all rows. -/
def scfReports (rd fl : Numeral → F64) : List ScfItem → List ScfCycle → List PyVal
  | _, [] => []
  | before, c :: cs => scfReport rd fl before c :: scfReports rd fl c.items cs

end Verif.Spec
