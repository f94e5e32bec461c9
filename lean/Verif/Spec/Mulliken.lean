import Verif.Spec.AtomVec
import Verif.Spec.Labelled
import Verif.Py.FloatOps
/-
Mulliken populations.
-/
namespace Verif.Spec
open Verif

/-- The line names an atom and then has these words. -/
def IonLine (l : Str) (a : AtomName) (words : List Str) : Prop :=
  ∃ g s, l = g ++ (a.text ++ s) ∧ Blank g ∧ (∀ c, s.head? = some c → isSpace c = true) ∧ Fields s words

/-- The populations of an atom: of the shells s, p, d and f and in total, the charge and possibly the spin.  When the spins
are given separately, `dn` has the populations of the other spin. -/
structure PopRow where
  name : AtomName
  idx : Str
  pops : List Numeral
  charge : Numeral
  spin : Option Numeral
  dn : Option (List Numeral)
  deriving DecidableEq

namespace PopRow

/-- The numbers in the first line. -/
def nums (r : PopRow) : List Numeral := r.pops ++ (r.charge :: r.spin.toList)

/-- The lines of an atom. -/
def Lines (r : PopRow) (ls : List Str) : Prop :=
  match r.dn with
  | none => ∃ l, ls = [l] ∧ IonLine l r.name (r.idx :: r.nums.map Numeral.text)
  | some dn => ∃ l l2 i more, ls = [l, l2] ∧ IonLine l r.name (r.idx :: py"up:" :: r.nums.map Numeral.text) ∧
      (∃ c s, l2 = c :: s ∧ isSpace c = true) ∧ Numeral.AllDigits i ∧ Fields l2 (i :: py"dn:" :: (dn.map Numeral.text ++ more))

/-- Well-formed name, number and numbers in range. -/
def Ok (r : PopRow) : Prop :=
  r.name.Valid ∧ Numeral.AllDigits r.idx ∧ r.idx ≠ [] ∧ r.pops.length = 5 ∧ (∀ n ∈ r.nums, n.Valid ∧ n.InRange) ∧
  ∀ d ∈ r.dn, RowOk 5 d

instance (r : PopRow) : Decidable r.Ok := inferInstanceAs (Decidable (_ ∧ _ ∧ _ ∧ _ ∧ (∀ n ∈ _, _) ∧ ∀ d ∈ _, _))

/-- The atom as the parser names it. -/
def key (r : PopRow) : Key := .tup [.str r.name.text, .int (Numeral.nat r.idx)]

/-- The names of the populations. -/
def shells : List Str := [py"s", py"p", py"d", py"f", py"total"]

/-- The populations under their names. -/
def named (rd : Numeral → F64) (pre : Str) (ns : List Numeral) : List (Key × PyVal) :=
  (shells.zip ns).map fun p => (.str (pre ++ p.1), .float (rd p.2))

/-- The last of the populations. -/
def total (fl : Numeral → F64) (ns : List Numeral) : F64 := ((ns[4]?).map fl).getD ⟨0⟩

/-- What is reported for the atom; with separate spins, the total is the sum of the two. -/
def info (rd fl : Numeral → F64) (r : PopRow) : List (Key × PyVal) :=
  let last := [(Key.str (py"charge"), PyVal.float (rd r.charge)),
    (Key.str (py"spin"), match r.spin with | some n => .float (rd n) | none => .none)]
  match r.dn with
  | none => (.str (py"spin_sep"), .bool false) :: (named rd [] r.pops ++ last)
  | some dn => (.str (py"spin_sep"), .bool true) :: (last ++ (named rd (py"up_") r.pops ++ (named rd (py"dn_") dn ++
      [(.str (py"total"), .float (F64.add (total fl r.pops) (total fl dn)))])))

/-- Lines without digits, and the lines of atoms. -/
inductive Table : List Str → List PopRow → Prop
  | nil : Table [] []
  | skip {l ls rs} : NoDigit l → Table ls rs → Table (l :: ls) rs
  | row {a ls r rs} : Lines r a → Table ls rs → Table (a ++ ls) (r :: rs)

end PopRow
end Verif.Spec
