import Verif.Spec.Header
import Verif.Spec.Mulliken
/-
Tables of `.castep` files in which every line has its own entry.
-/
namespace Verif.Spec
open Verif

/-- The name under which something is reported: its words of letters and digits in lower case. -/
def KeyName (s k : Str) : Prop := ∃ ws, Words isAlnum s ws ∧ k = Str.join (py"_") (ws.map Str.lower)

/-- A dictionary filled with these entries one after the other: the keys in the order of their first appearance, each
with the value that came last. -/
def LastWins (es d : List (Key × PyVal)) : Prop :=
  d.map Prod.fst = (es.map Prod.fst).eraseDups ∧ ∀ p ∈ d, es.reverse.find? (fun q => q.1 == p.1) = some p

instance (es d : List (Key × PyVal)) : Decidable (LastWins es d) := inferInstanceAs (Decidable (_ ∧ ∀ p ∈ _, _))

/-- The line begins with the text, apart from blanks. -/
def BeginsWith (w l : Str) : Prop := ∃ g s, l = g ++ (w ++ s) ∧ Blank g

/-- A line with a name, an equals sign and numbers. -/
def NamedLine (l key : Str) (n : Numeral) : Prop :=
  ∃ name v ns, l = name ++ 61 :: v ∧ 61 ∉ name ∧ 61 ∉ v ∧ KeyName name key ∧ HasNumbers v (n :: ns) ∧ ∀ m ∈ ns, m.Valid

/-- A line with a name without digits, an equals sign, and numbers. -/
def PlainNamed (l key : Str) (n : Numeral) : Prop :=
  ∃ name v ns, l = name ++ 61 :: v ∧ 61 ∉ name ∧ KeyName name key ∧ HasNumbers l (n :: ns) ∧ ∀ m ∈ ns, m.Valid

/-- A line of the occupancies: band, eigenvalue, occupancy. -/
structure OccRow where
  band : Numeral
  eigenvalue : Numeral
  occupancy : Numeral
  deriving DecidableEq

namespace OccRow

def Ok (r : OccRow) : Prop := r.band.Valid ∧ r.band.IsInt ∧ (∀ n ∈ [r.eigenvalue, r.occupancy], n.Valid ∧ n.InRange)

instance (r : OccRow) : Decidable r.Ok := inferInstanceAs (Decidable (_ ∧ _ ∧ ∀ n ∈ _, _))

def Line (l : Str) (r : OccRow) : Prop := HasNumbers l [r.band, r.eigenvalue, r.occupancy]

def info (rd : Numeral → F64) (r : OccRow) : List (Key × PyVal) :=
  [(.str (py"band"), .int (intOf r.band)), (.str (py"eigenvalue"), .float (rd r.eigenvalue)), (.str (py"occupancy"), .float (rd r.occupancy))]

end OccRow

/-- What a line of the report of a line minimisation says. -/
inductive LineMin where
  | initial (energy slope : Numeral)
  | steps (ns : List Numeral)
  | gain (ns : List Numeral)
  deriving DecidableEq

namespace LineMin

def nums : LineMin → List Numeral
  | initial e s => [e, s]
  | steps ns => ns
  | gain ns => ns

def Line (l : Str) (x : LineMin) : Prop := HasNumbers l x.nums ∧ match x with
  | initial _ _ => Occurs (py"initial") l
  | steps _ => ¬ Occurs (py"initial") l ∧ BeginsWith (py"| step") l
  | gain _ => ¬ Occurs (py"initial") l ∧ BeginsWith (py"| gain") l

def Other (l : Str) : Prop := ¬ Occurs (py"initial") l ∧ ¬ BeginsWith (py"| step") l ∧ ¬ BeginsWith (py"| gain") l

def entries (rd : Numeral → F64) : LineMin → List (Key × PyVal)
  | initial e s => [(.str (py"init_energy"), .float (rd e)), (.str (py"init_de_dstep"), .float (rd s))]
  | steps ns => [(.str (py"steps"), .tuple (ns.map fun n => .float (rd n)))]
  | gain ns => [(.str (py"gain"), .tuple (ns.map fun n => .float (rd n)))]

end LineMin

/-- What a line of the report of the dipole says. -/
inductive Dipole where
  | total (typ : Str) (n : Numeral)
  | centre (elec : Bool) (ns : List Numeral)
  | magnitude (n : Numeral)
  | direction (ns : List Numeral)
  deriving DecidableEq

namespace Dipole

def nums : Dipole → List Numeral
  | total _ n => [n]
  | centre _ ns => ns
  | magnitude n => [n]
  | direction ns => ns

def Lines (x : Dipole) (ls : List Str) : Prop := match x with
  | total typ n => ∃ l u g v ns, ls = [l] ∧ l = u ++ (py"Total" ++ (g ++ (typ ++ v))) ∧ c!"T" ∉ u ∧ Blank g ∧ typ ≠ [] ∧
      (∀ c ∈ typ, isWord c = true) ∧ (∀ c, v.head? = some c → isWord c = false) ∧ HasNumbers l (n :: ns) ∧ ∀ m ∈ ns, m.Valid
  | centre elec ns => ∃ l l2, ls = [l, l2] ∧ ¬ Occurs (py"Total") l ∧ Occurs (py"Centre") l ∧ (elec = true ↔ Occurs (py"elec") l) ∧ HasNumbers l2 ns
  | magnitude n => ∃ l ns, ls = [l] ∧ ¬ Occurs (py"Total") l ∧ ¬ Occurs (py"Centre") l ∧ Occurs (py"Magnitude") l ∧ HasNumbers l (n :: ns) ∧ ∀ m ∈ ns, m.Valid
  | direction ns => ∃ l, ls = [l] ∧ ¬ Occurs (py"Total") l ∧ ¬ Occurs (py"Centre") l ∧ ¬ Occurs (py"Magnitude") l ∧ Occurs (py"Direction") l ∧ HasNumbers l ns

def Other (l : Str) : Prop :=
  ¬ Occurs (py"Total") l ∧ ¬ Occurs (py"Centre") l ∧ ¬ Occurs (py"Magnitude") l ∧ ¬ Occurs (py"Direction") l

def entry (rd fl : Numeral → F64) : Dipole → Key × PyVal
  | total typ n => (.str (py"total_" ++ typ), .float (fl n))
  | centre elec ns => (.str (if elec then py"centre_electronic" else py"centre_positive"), .tuple (ns.map fun n => .float (rd n)))
  | magnitude n => (.str (py"dipole_magnitude"), .float (rd n))
  | direction ns => (.str (py"dipole_direction"), .tuple (ns.map fun n => .float (rd n)))

/-- The lines of the report, with others in between. -/
inductive Table : List Str → List Dipole → Prop
  | nil : Table [] []
  | skip {l ls xs} : Other l → Table ls xs → Table (l :: ls) xs
  | row {a ls x xs} : Lines x a → Table ls xs → Table (a ++ ls) (x :: xs)

end Dipole

end Verif.Spec
